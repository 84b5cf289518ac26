import Verif.Spec.Pieces
import Verif.Lemmas.TxCodec

namespace UB
open Spec

variable {α β : Type} {f : α → PStream → α × Nat × PStream} {st : α → Status} {rd : Bytes → Outcome β} {Rel : α → Bytes → Prop} {Done : α → β → Prop}

/-- `Fed`, saying nothing about what a stopped parser leaves of the stream. -/
def FedU (rd : Bytes → Outcome β) (Mid : Bytes → Prop) (Done : β → Prop) (st : Status) (ret : Nat) (s' : PStream)
    (p c : Bytes) : Prop :=
  match rd (p ++ c) with
  | .more => st = .incomplete ∧ Mid (p ++ c) ∧ ret = c.length ∧ s' = .of []
  | .ok d r => st = .done ∧ Done d ∧ ret + r.length = c.length ∧ s' = .of r
  | .bad => st.Stopped ∧ (st = .ub → Wide (p ++ c))

theorem Fed.toU {rd : Bytes → Outcome β} {Mid : Bytes → Prop} {Done : β → Prop} {st : Status} {ret : Nat} {s' : PStream} {p c : Bytes}
    (h : Fed rd Mid Done st ret s' p c) : FedU rd Mid Done st ret s' p c := by
  unfold Fed at h
  unfold FedU
  cases e : rd (p ++ c) with
  | more => rw [e] at h; exact h
  | ok d r => rw [e] at h; exact h
  | bad => rw [e] at h; exact ⟨h.1, h.2.1⟩

/-- Feeding pieces amounts to reading their concatenation. -/
theorem pieces_spec (Safe : Bytes → Prop)
    (step : ∀ a p c, Rel a p → c ≠ [] → (rd (p ++ c) = .more → Safe (p ++ c)) →
      FedU rd (Rel (f a (.of c)).1) (Done (f a (.of c)).1) (st (f a (.of c)).1) (f a (.of c)).2.1 (f a (.of c)).2.2 p c)
    (mono : ∀ q x r c, rd q = .ok x r → rd (q ++ c) = .ok x (r ++ c))
    (bad_mono : ∀ q c, rd q = .bad → rd (q ++ c) = .bad) :
    ∀ (cs : List Bytes) (a : α) (p : Bytes), Rel a p → cs ≠ [] → (∀ c ∈ cs, c ≠ []) →
      (∀ k, rd (p ++ (cs.take (k + 1)).flatten) = .more → Safe (p ++ (cs.take (k + 1)).flatten)) →
      match rd (p ++ cs.flatten) with
      | .ok d r => st (feedPieces f st a cs).1 = .done ∧ Done (feedPieces f st a cs).1 d ∧ (feedPieces f st a cs).2 + r.length = cs.flatten.length
      | .more => st (feedPieces f st a cs).1 = .incomplete
      | .bad => (st (feedPieces f st a cs).1).Stopped ∧ (st (feedPieces f st a cs).1 = .ub → Wide (p ++ cs.flatten))
  | [], _, _, _, h, _, _ => absurd rfl h
  | c :: cs, a, p, hr, _, hne, hs => by
    have hs0 := hs 0
    simp only [List.take_succ_cons, List.take_zero, List.flatten_cons, List.flatten_nil, List.append_nil] at hs0
    have h1 := step a p c hr (hne c (by simp)) hs0
    unfold FedU at h1
    have heq : p ++ (c :: cs).flatten = (p ++ c) ++ cs.flatten := by simp
    have hfl : (c :: cs).flatten.length = c.length + cs.flatten.length := by simp
    cases e : rd (p ++ c) with
    | ok d r =>
      rw [e] at h1
      rw [heq, mono _ _ _ cs.flatten e]
      unfold feedPieces
      simp only
      rw [if_neg (by rw [h1.1]; simp)]
      exact ⟨h1.1, h1.2.1, by rw [List.length_append]; have := h1.2.2.1; omega⟩
    | bad =>
      rw [e] at h1
      rw [heq, bad_mono _ cs.flatten e]
      unfold feedPieces
      simp only
      rw [if_neg (by intro h; simp only at h1; rw [h] at h1; exact not_stopped_incomplete h1.1)]
      exact ⟨h1.1, fun hu => (h1.2 hu).mono (List.prefix_append _ _).isInfix⟩
    | more =>
      rw [e] at h1
      obtain ⟨g1, g2, g3, g4⟩ := h1
      unfold feedPieces
      simp only
      rw [if_pos g1]
      by_cases hcs : cs = []
      · subst hcs
        rw [heq, List.flatten_nil, List.append_nil, e]
        exact g1
      · have ih := pieces_spec Safe step mono bad_mono cs (f a (.of c)).1 (p ++ c) g2 hcs (fun c hc => hne c (by simp [hc])) (fun k => by
          have := hs (k + 1)
          simpa using this)
        rw [heq]
        cases e2 : rd ((p ++ c) ++ cs.flatten) with
        | ok d r =>
          rw [e2] at ih
          exact ⟨ih.1, ih.2.1, by have := ih.2.2; omega⟩
        | more => rw [e2] at ih; exact ih
        | bad => rw [e2] at ih; exact ih

/-- Pieces against one piece. -/
theorem pieces_same (Safe : Bytes → Prop)
    (step : ∀ a p c, Rel a p → c ≠ [] → (rd (p ++ c) = .more → Safe (p ++ c)) →
      FedU rd (Rel (f a (.of c)).1) (Done (f a (.of c)).1) (st (f a (.of c)).1) (f a (.of c)).2.1 (f a (.of c)).2.2 p c)
    (mono : ∀ q x r c, rd q = .ok x r → rd (q ++ c) = .ok x (r ++ c))
    (bad_mono : ∀ q c, rd q = .bad → rd (q ++ c) = .bad)
    (a : α) (cs : List Bytes) (hr : Rel a []) (h0 : cs ≠ []) (hne : ∀ c ∈ cs, c ≠ [])
    (hs : ∀ k, rd (cs.take (k + 1)).flatten = .more → Safe (cs.take (k + 1)).flatten) :
    SameParse (st (feedPieces f st a cs).1) (st (f a (.of cs.flatten)).1) (feedPieces f st a cs).2 (f a (.of cs.flatten)).2.1
      (∃ d, Done (feedPieces f st a cs).1 d ∧ Done (f a (.of cs.flatten)).1 d) := by
  have h1 := pieces_spec Safe step mono bad_mono cs a [] hr h0 hne (by simpa using hs)
  have hfull : rd cs.flatten = .more → Safe cs.flatten := by
    obtain ⟨c, cs', rfl⟩ := List.exists_cons_of_ne_nil h0
    have := hs cs'.length
    rwa [List.take_of_length_le (by simp)] at this
  have hcne : cs.flatten ≠ [] := by
    obtain ⟨c, cs', rfl⟩ := List.exists_cons_of_ne_nil h0
    have := hne c (by simp)
    simp [this]
  have h2 := step a [] cs.flatten hr hcne (by simpa using hfull)
  unfold FedU at h2
  rw [List.nil_append] at h1 h2
  cases e : rd cs.flatten with
  | ok d r =>
    rw [e] at h1 h2
    obtain ⟨a1, a2, a3⟩ := h1
    obtain ⟨b1, b2, b3, _⟩ := h2
    exact ⟨by rw [a1, b1], by rw [a1, b1], fun _ => ⟨⟨d, a2, b2⟩, by omega⟩⟩
  | more =>
    rw [e] at h1 h2
    have h1' : st (feedPieces f st a cs).1 = .incomplete := h1
    exact ⟨by rw [h1', h2.1], by rw [h1', h2.1], fun h => by rw [h1'] at h; cases h⟩
  | bad =>
    rw [e] at h1 h2
    have h1' : (st (feedPieces f st a cs).1).Stopped := h1.1
    have h2' : (st (f a (.of cs.flatten)).1).Stopped := h2.1
    have nd : ∀ s : Status, s.Stopped → s ≠ .done ∧ s ≠ .incomplete := by
      rintro s (rfl | rfl) <;> simp
    exact ⟨⟨fun h => absurd h (nd _ h1').1, fun h => absurd h (nd _ h2').1⟩, ⟨fun h => absurd h (nd _ h1').2, fun h => absurd h (nd _ h2').2⟩,
      fun h => absurd h (nd _ h1').1⟩

theorem readMany_bad_mono {rd : Bytes → Outcome β} (mono : ∀ q x r c, rd q = .ok x r → rd (q ++ c) = .ok x (r ++ c))
    (bad_mono : ∀ q c, rd q = .bad → rd (q ++ c) = .bad) (c : Bytes) : ∀ (n : Nat) (q : Bytes), readMany rd n q = .bad → readMany rd n (q ++ c) = .bad
  | 0, q, h => by cases h
  | n + 1, q, h => by
    cases e : rd q with
    | more => rw [readMany_more _ e] at h; cases h
    | bad => exact readMany_bad _ (bad_mono _ c e)
    | ok d r =>
      have e' := mono _ _ _ c e
      cases e2 : readMany rd n r with
      | more => rw [readMany_ok_more _ e e2] at h; cases h
      | ok ys r2 => rw [readMany_ok_ok _ e e2] at h; cases h
      | bad => exact readMany_ok_bad _ e' (readMany_bad_mono mono bad_mono c n r e2)

theorem readWitness_mono {q : Bytes} {x : List Bytes} {r : Bytes} (c : Bytes) (h : readWitness q = .ok x r) : readWitness (q ++ c) = .ok x (r ++ c) := by
  obtain ⟨h1, h2⟩ := codecWitness.sound q x r h
  rw [h1, List.append_assoc]
  exact codecWitness.complete x _ h2

theorem readWitness_bad_mono {q : Bytes} (c : Bytes) (h : readWitness q = .bad) : readWitness (q ++ c) = .bad := by
  cases q with
  | nil => cases h
  | cons b r =>
    simp only [readWitness, List.cons_append] at h ⊢
    split_ifs at h ⊢ with hb
    · exact readMany_bad_mono (fun _ _ _ c h => readVar_mono c h) (fun _ c h => readVar_bad_mono c h) c _ _ h
    · rfl

theorem readTx_mono {q : Bytes} {x : Transaction} {r : Bytes} (c : Bytes) (h : readTx q = .ok x r) : readTx (q ++ c) = .ok x (r ++ c) := by
  have hA : ∀ sw v n p, readAfterCount sw v n p = .ok x r → readAfterCount sw v n (p ++ c) = .ok x (r ++ c) := by
    intro sw v n p h
    unfold readAfterCount at h ⊢
    cases e1 : readMany readIn n p with
    | more => rw [e1] at h; cases h
    | bad => rw [e1] at h; cases h
    | ok is q =>
      rw [e1] at h
      rw [Tx.readMany_mono codecIn c e1]
      simp only at h ⊢
      cases q with
      | nil => cases h
      | cons o q =>
        simp only [readAfterIns, List.cons_append] at h ⊢
        cases e2 : readMany readOut o.toNat q with
        | more => rw [e2] at h; cases h
        | bad => rw [e2] at h; cases h
        | ok os q2 =>
          rw [e2] at h
          rw [Tx.readMany_mono codecOut c e2]
          simp only at h ⊢
          have hl : ∀ ins p, readLocktime v ins os p = .ok x r → readLocktime v ins os (p ++ c) = .ok x (r ++ c) := by
            intro ins p h
            unfold readLocktime at h ⊢
            split_ifs at h with h4
            rw [if_neg (by rw [List.length_append]; omega), List.take_append_of_le_length (by omega), List.drop_append_of_le_length (by omega)]
            cases h; rfl
          unfold readTail at h ⊢
          split_ifs at h ⊢ with hsw
          · cases e3 : readMany readWitness is.length q2 with
            | more => rw [e3] at h; cases h
            | bad => rw [e3] at h; cases h
            | ok ws q3 =>
              rw [e3] at h
              rw [Tx.readMany_mono codecWitness c e3]
              exact hl _ _ h
          · exact hl _ _ h
  unfold readTx at h ⊢
  split_ifs at h with h4
  rw [if_neg (by rw [List.length_append]; omega), List.take_append_of_le_length (by omega), List.drop_append_of_le_length (by omega)]
  cases e : q.drop 4 with
  | nil => rw [e] at h; cases h
  | cons k q' =>
    rw [e] at h
    simp only [List.cons_append] at h ⊢
    split_ifs at h ⊢ with hk
    · exact hA _ _ _ _ h
    · cases q' with
      | nil => cases h
      | cons g q' =>
        simp only [List.cons_append] at h ⊢
        split_ifs at h ⊢ with hg
        cases q' with
        | nil => cases h
        | cons n q' =>
          simp only [List.cons_append] at h ⊢
          exact hA _ _ _ _ h

theorem readTx_bad_mono {q : Bytes} (c : Bytes) (h : readTx q = .bad) : readTx (q ++ c) = .bad := by
  have hA : ∀ sw v n p, readAfterCount sw v n p = .bad → readAfterCount sw v n (p ++ c) = .bad := by
    intro sw v n p h
    unfold readAfterCount at h ⊢
    cases e1 : readMany readIn n p with
    | more => rw [e1] at h; cases h
    | bad => rw [readMany_bad_mono (fun _ _ _ c h => readIn_mono c h) (fun _ c h => readIn_bad_mono c h) c _ _ e1]
    | ok is q =>
      rw [e1] at h
      rw [Tx.readMany_mono codecIn c e1]
      simp only at h ⊢
      cases q with
      | nil => cases h
      | cons o q =>
        simp only [readAfterIns, List.cons_append] at h ⊢
        cases e2 : readMany readOut o.toNat q with
        | more => rw [e2] at h; cases h
        | bad => rw [readMany_bad_mono (fun _ _ _ c h => readOut_mono c h) (fun _ c h => readOut_bad_mono c h) c _ _ e2]
        | ok os q2 =>
          rw [e2] at h
          rw [Tx.readMany_mono codecOut c e2]
          simp only at h ⊢
          have hl : ∀ ins p, readLocktime v ins os p ≠ .bad := by
            intro ins p h
            unfold readLocktime at h
            split_ifs at h
          unfold readTail at h ⊢
          split_ifs at h ⊢ with hsw
          · cases e3 : readMany readWitness is.length q2 with
            | more => rw [e3] at h; cases h
            | bad => rw [readMany_bad_mono (fun _ _ _ c h => readWitness_mono c h) (fun _ c h => readWitness_bad_mono c h) c _ _ e3]
            | ok ws q3 => rw [e3] at h; exact absurd h (hl _ _)
          · exact absurd h (hl _ _)
  unfold readTx at h ⊢
  split_ifs at h with h4
  rw [if_neg (by rw [List.length_append]; omega), List.take_append_of_le_length (by omega), List.drop_append_of_le_length (by omega)]
  cases e : q.drop 4 with
  | nil => rw [e] at h; cases h
  | cons k q' =>
    rw [e] at h
    simp only [List.cons_append] at h ⊢
    split_ifs at h ⊢ with hk
    · exact hA _ _ _ _ h
    · cases q' with
      | nil => cases h
      | cons g q' =>
        simp only [List.cons_append] at h ⊢
        split_ifs at h ⊢ with hg
        · rfl
        · cases q' with
          | nil => cases h
          | cons n q' =>
            simp only [List.cons_append] at h ⊢
            exact hA _ _ _ _ h

end UB
