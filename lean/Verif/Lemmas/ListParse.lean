import Verif.Lemmas.InOutParse

/-
Resumable parsing of a list of sub-objects (Tx::from_stream loops).
-/

namespace UB
open Spec

theorem readVar_bad_mono {q : Bytes} (c : Bytes) (h : readVar q = .bad) : readVar (q ++ c) = .bad := by
  cases q with
  | nil => cases h
  | cons b r =>
    simp only [readVar, List.cons_append] at h ⊢
    split_ifs at h with h1 h2 h3 h4 h5
    · rw [if_pos h1, if_neg]
      rw [List.length_append]
      rintro (h5 | ⟨h5, h6⟩)
      · omega
      · by_cases h7 : c = []
        · subst h7
          simp only [List.append_nil, List.length_nil, Nat.add_zero] at h5 h6
          omega
        · have := List.length_pos_iff.mpr h7
          omega
    · rw [if_neg h1, if_neg (by simp; omega), Script.prefixValue_append _ _ _ (by omega), if_pos h4]

theorem readIn_mono {q : Bytes} {x : In} {r : Bytes} (c : Bytes) (h : readIn q = .ok x r) : readIn (q ++ c) = .ok x (r ++ c) := by
  obtain ⟨h1, h2⟩ := codecIn.sound q x r h
  rw [h1, List.append_assoc]
  exact codecIn.complete x _ h2

theorem readIn_bad_mono {q : Bytes} (c : Bytes) (h : readIn q = .bad) : readIn (q ++ c) = .bad := by
  unfold readIn at h ⊢
  split_ifs at h with h1
  have e : (q ++ c).drop 36 = q.drop 36 ++ c := List.drop_append_of_le_length (by omega)
  rw [if_neg (by simp; omega), e]
  cases h2 : readVar (q.drop 36) with
  | more => rw [h2] at h; cases h
  | bad => rw [readVar_bad_mono c h2]
  | ok d r => rw [h2] at h; simp only at h; split_ifs at h

theorem readOut_mono {q : Bytes} {x : Out} {r : Bytes} (c : Bytes) (h : readOut q = .ok x r) : readOut (q ++ c) = .ok x (r ++ c) := by
  obtain ⟨h1, h2⟩ := codecOut.sound q x r h
  rw [h1, List.append_assoc]
  exact codecOut.complete x _ h2

theorem readOut_bad_mono {q : Bytes} (c : Bytes) (h : readOut q = .bad) : readOut (q ++ c) = .bad := by
  unfold readOut at h ⊢
  split_ifs at h with h1
  have e : (q ++ c).drop 8 = q.drop 8 ++ c := List.drop_append_of_le_length (by omega)
  rw [if_neg (by simp; omega), e]
  cases h2 : readVar (q.drop 8) with
  | more => rw [h2] at h; cases h
  | bad => rw [readVar_bad_mono c h2]
  | ok d r => rw [h2] at h; cases h

/-- A sub-object parser which follows the declarative reader `rd`. -/
structure Feeds {α β : Type} (f : α → PStream → α × Nat × PStream) (st : α → Status) (rd : Bytes → Outcome β)
    (Mid : α → Bytes → Prop) (Done : α → β → Prop) : Prop where
  nil : rd [] = .more
  inc : ∀ a p, Mid a p → st a = .incomplete
  step : ∀ a p c, Mid a p → Fed rd (Mid (f a (.of c)).1) (Done (f a (.of c)).1) (st (f a (.of c)).1) (f a (.of c)).2.1 (f a (.of c)).2.2 p c
  mono : ∀ q x r c, rd q = .ok x r → rd (q ++ c) = .ok x (r ++ c)
  suffix : ∀ q x r, rd q = .ok x r → r <:+ q
  bad_mono : ∀ q c, rd q = .bad → rd (q ++ c) = .bad

variable {α β : Type} {f : α → PStream → α × Nat × PStream} {st : α → Status} {rd : Bytes → Outcome β}
  {Mid : α → Bytes → Prop} {Done : α → β → Prop}

theorem rd_suffix (F : Feeds f st rd Mid Done) {q r : Bytes} {x : β} (h : rd q = .ok x r) : r <:+ q := F.suffix q x r h

/-- State of a list of sub-objects of which the bytes `q` have been consumed. -/
def SeqMid (st : α → Status) (rd : Bytes → Outcome β) (Mid : α → Bytes → Prop) (Done : α → β → Prop) : List α → Bytes → Prop
  | [], q => q = []
  | x :: xs, q => (rd q = .more ∧ Mid x q ∧ ∀ y ∈ xs, Mid y []) ∨
      (∃ d r, rd q = .ok d r ∧ st x = .done ∧ Done x d ∧ SeqMid st rd Mid Done xs r)

/-- All sub-objects have been parsed. -/
def SeqDone (st : α → Status) (Done : α → β → Prop) : List α → List β → Prop := List.Forall₂ fun x y => st x = .done ∧ Done x y

/-- What a pass over the list must produce. -/
def FedMany (st : α → Status) (rd : Bytes → Outcome β) (Mid : α → Bytes → Prop) (Done : α → β → Prop)
    (xs' : List α) (n : Nat) (s' : PStream) (good : Bool) (q c : Bytes) : Prop :=
  match readMany rd xs'.length (q ++ c) with
  | .more => good = true ∧ SeqMid st rd Mid Done xs' (q ++ c) ∧ n = c.length ∧ s' = .of []
  | .ok ys r => good = true ∧ SeqDone st Done xs' ys ∧ n + r.length = c.length ∧ s' = .of r
  | .bad => good = false ∧ (∀ a ∈ xs', st a = .ub → Wide (q ++ c)) ∧ ∃ r, s' = .of r ∧ r <:+ c

theorem seqMid_fresh (F : Feeds f st rd Mid Done) : ∀ (xs : List α), (∀ y ∈ xs, Mid y []) → SeqMid st rd Mid Done xs []
  | [], _ => rfl
  | x :: xs, h => Or.inl ⟨F.nil, h x (by simp), fun y hy => h y (by simp [hy])⟩

theorem seqDone_none (xs : List α) (ys : List β) (h : SeqDone st Done xs ys) : ∀ x ∈ xs, st x = .done := by
  induction h with
  | nil => simp
  | cons h _ ih => intro x hx; rcases List.mem_cons.mp hx with rfl | hx; exact h.1; exact ih x hx

theorem contLoop_go (x : α) (xs : List α) (s : PStream) (y : α × Nat × PStream)
    (hy : (if s.avail ∧ st x = .incomplete then f x s else (x, 0, s)) = y) (h : ¬ (st y.1).Stopped) :
    Tx.contLoop f st (x :: xs) s = (y.1 :: (Tx.contLoop f st xs y.2.2).1, y.2.1 + (Tx.contLoop f st xs y.2.2).2.1,
      (Tx.contLoop f st xs y.2.2).2.2.1, (Tx.contLoop f st xs y.2.2).2.2.2) := by
  conv_lhs => unfold Tx.contLoop
  rw [hy]
  simp only
  rw [if_neg (show ¬ (st y.1 = .failed ∨ st y.1 = .ub) from h)]

theorem contLoop_stop (x : α) (xs : List α) (s : PStream) (y : α × Nat × PStream)
    (hy : (if s.avail ∧ st x = .incomplete then f x s else (x, 0, s)) = y) (h : (st y.1).Stopped) :
    Tx.contLoop f st (x :: xs) s = (y.1 :: xs, y.2.1, y.2.2, false) := by
  unfold Tx.contLoop
  rw [hy]
  simp only
  rw [if_pos (show st y.1 = .failed ∨ st y.1 = .ub from h)]

theorem contLoop_length : ∀ (xs : List α) (s : PStream), (Tx.contLoop f st xs s).1.length = xs.length
  | [], s => rfl
  | x :: xs, s => by
    by_cases h : (st (if s.avail ∧ st x = .incomplete then f x s else (x, 0, s)).1).Stopped
    · rw [contLoop_stop x xs s _ rfl h]; rfl
    · rw [contLoop_go x xs s _ rfl h]; simp [contLoop_length xs]

theorem readMany_more {q : Bytes} (n : Nat) (h : rd q = .more) : readMany rd (n + 1) q = .more := by simp only [readMany, h]
theorem readMany_bad {q : Bytes} (n : Nat) (h : rd q = .bad) : readMany rd (n + 1) q = .bad := by simp only [readMany, h]
theorem readMany_ok_more {q : Bytes} {d : β} {r : Bytes} (n : Nat) (h : rd q = .ok d r) (h2 : readMany rd n r = .more) :
    readMany rd (n + 1) q = .more := by simp only [readMany, h, h2]
theorem readMany_ok_bad {q : Bytes} {d : β} {r : Bytes} (n : Nat) (h : rd q = .ok d r) (h2 : readMany rd n r = .bad) :
    readMany rd (n + 1) q = .bad := by simp only [readMany, h, h2]
theorem readMany_ok_ok {q : Bytes} {d : β} {r r2 : Bytes} {ys : List β} (n : Nat) (h : rd q = .ok d r) (h2 : readMany rd n r = .ok ys r2) :
    readMany rd (n + 1) q = .ok (d :: ys) r2 := by simp only [readMany, h, h2]

/-- Nothing happens on objects none of which is incomplete or failed. -/
theorem contLoop_idle (s : PStream) : ∀ (xs : List α), (∀ x ∈ xs, ¬ (st x).Stopped ∧ (s.avail = true → st x ≠ .incomplete)) →
    Tx.contLoop f st xs s = (xs, 0, s, true)
  | [], _ => rfl
  | x :: xs, h => by
    obtain ⟨h1, h2⟩ := h x (by simp)
    rw [contLoop_go x xs s (x, 0, s) (if_neg (fun hc => h2 hc.1 hc.2)) h1]
    simp only
    rw [contLoop_idle s xs (fun y hy => h y (by simp [hy]))]
    simp

theorem not_stopped_incomplete : ¬ Status.Stopped .incomplete := by rintro (h | h) <;> cases h
theorem not_stopped_done : ¬ Status.Stopped .done := by rintro (h | h) <;> cases h

theorem seqMid_notStopped (F : Feeds f st rd Mid Done) : ∀ (xs : List α) (q : Bytes), SeqMid st rd Mid Done xs q → ∀ x ∈ xs, ¬ (st x).Stopped
  | [], _, _ => by simp
  | x :: xs, q, h => by
    intro y hy
    rcases h with ⟨_, h2, h3⟩ | ⟨d, r, _, h2, _, h4⟩
    · rcases List.mem_cons.mp hy with rfl | hy
      · rw [F.inc _ _ h2]; exact not_stopped_incomplete
      · rw [F.inc _ _ (h3 y hy)]; exact not_stopped_incomplete
    · rcases List.mem_cons.mp hy with rfl | hy
      · rw [h2]; exact not_stopped_done
      · exact seqMid_notStopped F xs r h4 y hy

/-- The resuming loop. -/
theorem contLoop_spec (F : Feeds f st rd Mid Done) : ∀ (xs : List α) (q c : Bytes), SeqMid st rd Mid Done xs q →
    FedMany st rd Mid Done (Tx.contLoop f st xs (.of c)).1 (Tx.contLoop f st xs (.of c)).2.1 (Tx.contLoop f st xs (.of c)).2.2.1
      (Tx.contLoop f st xs (.of c)).2.2.2 q c
  | [], q, c, h => by
    have hq : q = [] := h
    subst hq
    simp [Tx.contLoop, FedMany, readMany, SeqDone]
  | x :: xs, q, c, h => by
    unfold FedMany
    rw [contLoop_length (f := f) (st := st) (x :: xs) (.of c), List.length_cons]
    rcases h with ⟨h1, h2, h3⟩ | ⟨d, r, h1, h2, h3, h4⟩
    · have hinc := F.inc _ _ h2
      by_cases hc : c = []
      · subst hc
        rw [contLoop_idle _ (x :: xs) (by
          intro y hy
          rcases List.mem_cons.mp hy with rfl | hy
          · exact ⟨by rw [hinc]; exact not_stopped_incomplete, by simp⟩
          · exact ⟨by rw [F.inc _ _ (h3 y hy)]; exact not_stopped_incomplete, by simp⟩)]
        rw [List.append_nil, readMany_more _ h1]
        exact ⟨rfl, Or.inl ⟨h1, h2, h3⟩, rfl, rfl⟩
      · have hav : (PStream.of c).avail = true := by
          cases c with
          | nil => exact absurd rfl hc
          | cons => simp
        have hs := F.step x q c h2
        unfold Fed at hs
        have hy : (if (PStream.of c).avail ∧ st x = .incomplete then f x (.of c) else (x, 0, .of c)) = f x (.of c) := if_pos ⟨hav, hinc⟩
        cases e : rd (q ++ c) with
        | more =>
          rw [e] at hs
          obtain ⟨g1, g2, g3, g4⟩ := hs
          rw [contLoop_go x xs (.of c) _ hy (by rw [g1]; exact not_stopped_incomplete), g4]
          rw [contLoop_idle _ xs (fun y hy => ⟨by rw [F.inc _ _ (h3 y hy)]; exact not_stopped_incomplete, by simp⟩)]
          rw [readMany_more _ e]
          exact ⟨rfl, Or.inl ⟨e, g2, h3⟩, by simp [g3], rfl⟩
        | bad =>
          rw [e] at hs
          rw [contLoop_stop x xs (.of c) _ hy hs.1, readMany_bad _ e]
          refine ⟨rfl, ?_, hs.2.2⟩
          intro a ha hu
          rcases List.mem_cons.mp ha with rfl | ha
          · exact hs.2.1 hu
          · rw [F.inc _ _ (h3 a ha)] at hu; cases hu
        | ok d r =>
          rw [e] at hs
          obtain ⟨g1, g2, g3, g4⟩ := hs
          rw [contLoop_go x xs (.of c) _ hy (by rw [g1]; exact not_stopped_done), g4]
          have ih := contLoop_spec F xs [] r (seqMid_fresh F xs h3)
          unfold FedMany at ih
          rw [contLoop_length, List.nil_append] at ih
          cases e2 : readMany rd xs.length r with
          | more =>
            rw [e2] at ih
            obtain ⟨i1, i2, i3, i4⟩ := ih
            rw [readMany_ok_more _ e e2]
            exact ⟨i1, Or.inr ⟨d, r, e, g1, g2, i2⟩, by simp only [i3]; omega, i4⟩
          | bad =>
            rw [e2] at ih
            rw [readMany_ok_bad _ e e2]
            have hr := rd_suffix F e
            refine ⟨ih.1, ?_, ?_⟩
            · intro a ha hu
              rcases List.mem_cons.mp ha with rfl | ha
              · rw [g1] at hu; cases hu
              · exact (ih.2.1 a ha hu).mono hr.isInfix
            · obtain ⟨r', e', hs'⟩ := ih.2.2
              refine ⟨r', e', hs'.trans ?_⟩
              exact List.suffix_of_suffix_length_le hr (List.suffix_append q c) (by omega)
          | ok ys r2 =>
            rw [e2] at ih
            obtain ⟨i1, i2, i3, i4⟩ := ih
            rw [readMany_ok_ok _ e e2]
            exact ⟨i1, .cons ⟨g1, g2⟩ i2, by (try simp only); omega, i4⟩
    · rw [contLoop_go x xs (.of c) (x, 0, .of c) (if_neg (by rw [h2]; simp)) (by rw [h2]; exact not_stopped_done)]
      simp only
      have e := F.mono _ _ _ c h1
      have ih := contLoop_spec F xs r c h4
      unfold FedMany at ih
      rw [contLoop_length] at ih
      cases e2 : readMany rd xs.length (r ++ c) with
      | more =>
        rw [e2] at ih
        obtain ⟨i1, i2, i3, i4⟩ := ih
        rw [readMany_ok_more _ e e2]
        exact ⟨i1, Or.inr ⟨d, r ++ c, e, h2, h3, i2⟩, by simp only [i3]; omega, i4⟩
      | bad =>
        rw [e2] at ih
        rw [readMany_ok_bad _ e e2]
        refine ⟨ih.1, ?_, ih.2.2⟩
        intro a ha hu
        rcases List.mem_cons.mp ha with rfl | ha
        · rw [h2] at hu; cases hu
        · exact (ih.2.1 a ha hu).mono (rd_suffix F e).isInfix
      | ok ys r2 =>
        rw [e2] at ih
        obtain ⟨i1, i2, i3, i4⟩ := ih
        rw [readMany_ok_ok _ e e2]
        exact ⟨i1, .cons ⟨h2, h3⟩ i2, by (try simp only); omega, i4⟩

/-- `contAll` reports failure exactly when the loop stops. -/
theorem contAll_good (xs : List α) (s : PStream) (h : (Tx.contLoop f st xs s).2.2.2 = true)
    (hn : ∀ x ∈ (Tx.contLoop f st xs s).1, ¬ (st x).Stopped) :
    Tx.contAll f st xs s = ((Tx.contLoop f st xs s).1, (Tx.contLoop f st xs s).2.1, (Tx.contLoop f st xs s).2.2.1, none) := by
  unfold Tx.contAll
  simp only
  rw [if_neg]
  · rw [h]; simp
  · simp only [List.any_eq_true, decide_eq_true_eq, not_exists, not_and]
    intro x hx h2
    exact hn x hx (Or.inr h2)

theorem contAll_bad (xs : List α) (s : PStream) (h : (Tx.contLoop f st xs s).2.2.2 = false) :
    ∃ e, (Tx.contAll f st xs s).2.2.2 = some e ∧ e.Stopped ∧ (e = .ub → ∃ x ∈ (Tx.contLoop f st xs s).1, st x = .ub) := by
  unfold Tx.contAll
  simp only
  by_cases hu : ((Tx.contLoop f st xs s).1.any fun x => decide (st x = .ub)) = true
  · rw [if_pos hu]
    refine ⟨_, rfl, Or.inr rfl, fun _ => ?_⟩
    obtain ⟨x, hx, hs⟩ := List.any_eq_true.mp hu
    exact ⟨x, hx, by simpa using hs⟩
  · rw [if_neg hu, h]; exact ⟨_, rfl, Or.inl rfl, by simp⟩

/-- The resuming loop on a list the first non-finished object of which has failed. -/
theorem contLoop_stopped (s : PStream) : ∀ (pre : List α) (x : α) (post : List α), (∀ a ∈ pre, st a = .done) → (st x).Stopped →
    Tx.contLoop f st (pre ++ x :: post) s = (pre ++ x :: post, 0, s, false)
  | [], x, post, _, hx => by
    rw [List.nil_append, contLoop_stop x post s (x, 0, s) (if_neg (by intro hc; rw [hc.2] at hx; exact not_stopped_incomplete hx)) hx]
  | a :: pre, x, post, h, hx => by
    have ha := h a (by simp)
    rw [List.cons_append, contLoop_go a _ s (a, 0, s) (if_neg (by rw [ha]; simp)) (by rw [ha]; exact not_stopped_done)]
    simp only [contLoop_stopped s pre x post (fun b hb => h b (by simp [hb])) hx]

/-- A fresh object fed for the first time. -/
def FreshFed (f : α → PStream → α × Nat × PStream) (st : α → Status) (rd : Bytes → Outcome β)
    (Mid : α → Bytes → Prop) (Done : α → β → Prop) (a : α) : Prop :=
  ∀ c, Fed rd (Mid (f a (.of c)).1) (Done (f a (.of c)).1) (st (f a (.of c)).1) (f a (.of c)).2.1 (f a (.of c)).2.2 [] c

/-- What the first pass over a list of fresh objects leaves. -/
def FedFirst (st : α → Status) (rd : Bytes → Outcome β) (Mid : α → Bytes → Prop) (Done : α → β → Prop)
    (k : Nat) (xs' : List α) (n : Nat) (s' : PStream) (c : Bytes) : Prop :=
  xs'.length = k ∧
  match readMany rd k c with
  | .more => SeqMid st rd Mid Done xs' c ∧ n = c.length ∧ s' = .of []
  | .ok ys r => SeqDone st Done xs' ys ∧ n + r.length = c.length ∧ s' = .of r
  | .bad => (∃ pre x post, xs' = pre ++ x :: post ∧ (∀ a ∈ pre, st a = .done) ∧ (st x).Stopped) ∧
      (∀ a ∈ xs', st a = .ub → Wide c) ∧ ∃ r, s' = .of r ∧ r <:+ c

theorem parseAll_length : ∀ (xs : List α) (s : PStream), (Tx.parseAll f xs s).1.length = xs.length
  | [], _ => rfl
  | x :: xs, s => by unfold Tx.parseAll; simp [parseAll_length xs]

theorem parseAll_empty (F : Feeds f st rd Mid Done) : ∀ (xs : List α), (∀ a ∈ xs, FreshFed f st rd Mid Done a) →
    (∀ y ∈ (Tx.parseAll f xs (.of [])).1, Mid y []) ∧ (Tx.parseAll f xs (.of [])).2.1 = 0 ∧ (Tx.parseAll f xs (.of [])).2.2 = .of []
  | [], _ => by simp [Tx.parseAll]
  | x :: xs, h => by
    have hx := h x (by simp) []
    unfold Fed at hx
    simp only [List.append_nil, F.nil] at hx
    obtain ⟨_, h2, h3, h4⟩ := hx
    obtain ⟨i1, i2, i3⟩ := parseAll_empty F xs (fun a ha => h a (by simp [ha]))
    unfold Tx.parseAll
    simp only [h4, i2, i3, h3]
    refine ⟨?_, by simp⟩
    intro y hy
    rcases List.mem_cons.mp hy with rfl | hy
    · exact h2
    · exact i1 y hy

/-- Undefined behaviour in the first pass over a list of fresh objects, wherever in the stream it starts. -/
theorem parseAll_wide (F : Feeds f st rd Mid Done) : ∀ (xs : List α) (c : Bytes), (∀ a ∈ xs, FreshFed f st rd Mid Done a) →
    (∀ y ∈ (Tx.parseAll f xs (.of c)).1, st y = .ub → Wide c) ∧ ∃ r, (Tx.parseAll f xs (.of c)).2.2 = .of r ∧ r <:+ c
  | [], c, _ => by simp [Tx.parseAll]
  | x :: xs, c, h => by
    have hx := h x (by simp) c
    unfold Fed at hx
    rw [List.nil_append] at hx
    unfold Tx.parseAll
    generalize f x (.of c) = fx at hx ⊢
    obtain ⟨x', n, s'⟩ := fx
    simp only at hx ⊢
    have key : (st x' = .ub → Wide c) ∧ ∃ r, s' = .of r ∧ r <:+ c := by
      cases e : rd c with
      | more => rw [e] at hx; exact ⟨fun hu => by (rw [hx.1] at hu; cases hu), [], hx.2.2.2, List.nil_suffix⟩
      | bad => rw [e] at hx; exact hx.2
      | ok d r => rw [e] at hx; exact ⟨fun hu => by (rw [hx.1] at hu; cases hu), r, hx.2.2.2, rd_suffix F e⟩
    obtain ⟨k1, r, rfl, k3⟩ := key
    obtain ⟨i1, r2, i2, i3⟩ := parseAll_wide F xs r (fun a ha => h a (by simp [ha]))
    refine ⟨?_, r2, i2, i3.trans k3⟩
    intro y hy hu
    rcases List.mem_cons.mp hy with rfl | hy
    · exact k1 hu
    · exact (i1 y hy hu).mono k3.isInfix

/-- The first pass over a list of fresh objects. -/
theorem parseAll_spec (F : Feeds f st rd Mid Done) : ∀ (xs : List α) (c : Bytes), (∀ a ∈ xs, FreshFed f st rd Mid Done a) →
    FedFirst st rd Mid Done xs.length (Tx.parseAll f xs (.of c)).1 (Tx.parseAll f xs (.of c)).2.1 (Tx.parseAll f xs (.of c)).2.2 c
  | [], c, _ => by simp [Tx.parseAll, FedFirst, readMany, SeqDone]
  | x :: xs, c, h => by
    refine ⟨parseAll_length _ _, ?_⟩
    have hx := h x (by simp) c
    unfold Fed at hx
    rw [List.nil_append] at hx
    rw [List.length_cons]
    unfold Tx.parseAll
    generalize hfx : f x (.of c) = fx at hx ⊢
    obtain ⟨x', n, s'⟩ := fx
    simp only at hx ⊢
    cases e : rd c with
    | more =>
      rw [e] at hx
      obtain ⟨g1, g2, g3, g4⟩ := hx
      subst g4
      obtain ⟨i1, i2, i3⟩ := parseAll_empty F xs (fun a ha => h a (by simp [ha]))
      rw [readMany_more _ e]
      exact ⟨Or.inl ⟨e, g2, i1⟩, by simp [g3, i2], i3⟩
    | bad =>
      rw [e] at hx
      rw [readMany_bad _ e]
      exact ⟨⟨[], x', _, rfl, by simp, hx.1⟩, by simpa only [Tx.parseAll, hfx] using parseAll_wide F (x :: xs) c h⟩
    | ok d r =>
      rw [e] at hx
      obtain ⟨g1, g2, g3, g4⟩ := hx
      subst g4
      have ih := (parseAll_spec F xs r (fun a ha => h a (by simp [ha]))).2
      cases e2 : readMany rd xs.length r with
      | more =>
        rw [e2] at ih
        rw [readMany_ok_more _ e e2]
        exact ⟨Or.inr ⟨d, r, e, g1, g2, ih.1⟩, by simp only [ih.2.1]; omega, ih.2.2⟩
      | bad =>
        rw [e2] at ih
        obtain ⟨pre, y, post, i1, i2, i3⟩ := ih.1
        rw [readMany_ok_bad _ e e2]
        refine ⟨⟨x' :: pre, y, post, by rw [i1]; rfl, ?_, i3⟩, by simpa only [Tx.parseAll, hfx] using parseAll_wide F (x :: xs) c h⟩
        intro a ha
        rcases List.mem_cons.mp ha with rfl | ha
        · exact g1
        · exact i2 a ha
      | ok ys r2 =>
        rw [e2] at ih
        rw [readMany_ok_ok _ e e2]
        exact ⟨.cons ⟨g1, g2⟩ ih.1, by rw [Nat.add_assoc, ih.2.1]; omega, ih.2.2⟩

end UB
