import Verif.Lemmas.WitnessParse

/-
Parsing of transactions.
-/

namespace UB
open Spec

namespace TxIn

/-- An input being parsed as part of a transaction; its witness has not been touched. -/
def InMid (t : TxIn) (p : Bytes) : Prop := t.Mid p ∧ t.witness = {}
def InDone (t : TxIn) (i : In) : Prop := t.HoldsBody i ∧ t.witness = {}

theorem fed_witness (t : TxIn) (p c : Bytes) (hw : t.witness = {})
    (h : Fed readIn (t.fromStream (.of c)).1.Mid (t.fromStream (.of c)).1.HoldsBody (t.fromStream (.of c)).1.status
      (t.fromStream (.of c)).2.1 (t.fromStream (.of c)).2.2 p c) :
    Fed readIn (t.fromStream (.of c)).1.InMid (t.fromStream (.of c)).1.InDone (t.fromStream (.of c)).1.status
      (t.fromStream (.of c)).2.1 (t.fromStream (.of c)).2.2 p c := by
  have hw' : (t.fromStream (.of c)).1.witness = {} := by rw [fromStream_witness, hw]
  unfold Fed at h ⊢
  cases e : readIn (p ++ c) with
  | more => rw [e] at h; exact ⟨h.1, ⟨h.2.1, hw'⟩, h.2.2⟩
  | bad => rw [e] at h; exact h
  | ok d r => rw [e] at h; exact ⟨h.1, ⟨h.2.1, hw'⟩, h.2.2⟩

theorem feeds : Feeds TxIn.fromStream (·.status) readIn InMid InDone where
  nil := rfl
  inc := fun _ _ h => h.1.status
  step := fun t p c h => fed_witness t p c h.2 (feed t p c (Or.inr h.1))
  mono := fun _ _ _ c h => readIn_mono c h
  bad_mono := fun _ c h => readIn_bad_mono c h
  suffix := fun q x r h => by rw [(codecIn.sound q x r h).1]; exact List.suffix_append _ _

theorem fresh : FreshFed TxIn.fromStream (·.status) readIn InMid InDone {} :=
  fun c => fed_witness {} [] c rfl (feed {} [] c (Or.inl ⟨⟨rfl, by simp, rfl⟩, rfl⟩))

end TxIn

namespace TxOut

theorem feeds : Feeds TxOut.fromStream (·.status) readOut Mid Holds where
  nil := rfl
  inc := fun _ _ h => h.status
  step := fun t p c h => feed t p c (Or.inr h)
  mono := fun _ _ _ c h => readOut_mono c h
  bad_mono := fun _ c h => readOut_bad_mono c h
  suffix := fun q x r h => by rw [(codecOut.sound q x r h).1]; exact List.suffix_append _ _

theorem fresh : FreshFed TxOut.fromStream (·.status) readOut Mid Holds {} :=
  fun c => feed {} [] c (Or.inl ⟨⟨rfl, rfl⟩, rfl⟩)

end TxOut

/-! #### Positions -/

theorem Script.At.consumed {sc : Script} {q r : Bytes} (h : sc.At q r) : q.length ≤ sc.length + r.length ∨ q.length ≤ 5 := by
  rcases h with ⟨rfl, _⟩ | ⟨_, _, h⟩ | ⟨d, h, _, h2⟩
  · simp
  · obtain ⟨_, _, b, r', rfl, hl, h | h⟩ := h
    · right
      have : r'.length ≤ 4 := by by_contra hh; exact h.2.1 (Or.inl (by omega))
      simp; omega
    · left
      obtain ⟨h1, h2, h3, h4, h5, h6, _⟩ := h
      unfold length
      rw [h5] at h6 ⊢
      rw [lenVarIntN_eq _ (by omega), h3]
      rw [List.length_drop] at h6
      simp only [List.length_cons]; omega
  · left
    rw [readVar_ok_length h]
    have := (codecVar.sound _ _ _ h).2
    rw [sc.length_eq d h2 (by omega)]

theorem TxIn.Mid.consumed {t : TxIn} {p : Bytes} (h : t.Mid p) : p.length ≤ t.length := by
  obtain ⟨r0, h1, h2, _⟩ := h.script
  have hl := Script.length_ge t.scriptSig
  unfold TxIn.length
  rcases h1.consumed with h3 | h3
  · rw [List.length_drop] at h3; omega
  · rw [List.length_drop] at h3; omega

theorem TxIn.HoldsBody.length {t : TxIn} {i : In} (h : t.HoldsBody i) (hi : i.script.length < 2 ^ 31) : t.length = (inBytes i).length :=
  TxIn.length_eq t i h (by omega)

/-- Total size of the inputs at any time during parsing. -/
theorem seqMid_ins : ∀ (xs : List TxIn) (q : Bytes), SeqMid (·.status) readIn TxIn.InMid TxIn.InDone xs q → q.length ≤ (xs.map (·.length)).sum
  | [], q, h => by have : q = [] := h; subst this; simp
  | x :: xs, q, h => by
    rw [List.map_cons, List.sum_cons]
    rcases h with ⟨_, h2, _⟩ | ⟨d, r, h1, _, h3, h4⟩
    · have := h2.1.consumed; omega
    · have := seqMid_ins xs r h4
      have hs := codecIn.sound _ _ _ h1
      have hl := h3.1.length hs.2.1.script
      rw [hs.1, List.length_append]; omega

theorem seqDone_ins (xs : List TxIn) (ys : List In) (h : List.Forall₂ (fun t i => t.HoldsBody i) xs ys) (hv : ∀ i ∈ ys, i.script.length < 2 ^ 31) :
    (xs.map (·.length)).sum = (ys.flatMap inBytes).length := by
  induction h with
  | nil => rfl
  | cons h _ ih =>
    rw [List.map_cons, List.sum_cons, List.flatMap_cons, List.length_append, ih (fun i hi => hv i (by simp [hi])), h.length (hv _ (by simp))]

theorem seqDone_outs (xs : List TxOut) (ys : List Out) (h : List.Forall₂ (fun t i => t.Holds i) xs ys) (hv : ∀ i ∈ ys, i.script.length < 2 ^ 31) :
    (xs.map (·.length)).sum = (ys.flatMap outBytes).length := by
  induction h with
  | nil => rfl
  | cons h _ ih =>
    rw [List.map_cons, List.sum_cons, List.flatMap_cons, List.length_append, ih (fun i hi => hv i (by simp [hi])),
      TxOut.length_eq _ _ h (by have := hv _ (List.mem_cons_self ..); omega)]

theorem seqDone_wits (xs : List TxIn) (ys : List (List Bytes)) (h : List.Forall₂ (fun t w => t.witness.Holds w) xs ys) (hv : ∀ w ∈ ys, w.length < 253) :
    (xs.map (·.witness.length)).sum = (ys.flatMap witnessBytes).length := by
  induction h with
  | nil => rfl
  | cons h _ ih =>
    rw [List.map_cons, List.sum_cons, List.flatMap_cons, List.length_append, ih (fun i hi => hv i (by simp [hi])),
      Witness.length_eq _ _ h (by have := hv _ (List.mem_cons_self ..); omega)]

/-- `r` ends inside a length prefix of several bytes of the script of the last of `o` outputs. -/
def LastOutCut (o : Nat) (r : Bytes) : Prop :=
  ∃ os a b x, o = List.length os + 1 ∧ r = os.flatMap outBytes ++ (a ++ b :: x) ∧ (∀ y ∈ os, ValidOut y) ∧ a.length = 8 ∧ x.length < extraBytes b ∧ ¬ tooLong (extraBytes b) x

theorem TxOut.length_ge (t : TxOut) : 9 ≤ t.length := by
  have := Script.length_ge t.scriptPubkey
  unfold length; omega

theorem sum_outs_ge (xs : List TxOut) : 9 * xs.length ≤ (xs.map (·.length)).sum := by
  induction xs with
  | nil => simp
  | cons x xs ih => have := x.length_ge; simp only [List.map_cons, List.sum_cons, List.length_cons]; omega

/-- The outputs look complete from their lengths only when the last one is cut inside its length prefix. -/
theorem seqMid_outs : ∀ (xs : List TxOut) (q : Bytes), readMany readOut xs.length q = .more → SeqMid (·.status) readOut TxOut.Mid TxOut.Holds xs q →
    q.length ≤ (xs.map (·.length)).sum + 4 ∧ (q.length = (xs.map (·.length)).sum → LastOutCut xs.length q)
  | [], q, hm, h => by cases hm
  | x :: xs, q, hm, h => by
    rw [List.map_cons, List.sum_cons]
    rcases h with ⟨hmore, h2, _⟩ | ⟨d, r, h1, _, h3, h4⟩
    · have h9 := sum_outs_ge xs
      have hge := Script.length_ge x.scriptPubkey
      by_cases h8 : q.length ≤ 8
      · constructor
        · unfold TxOut.length; omega
        · unfold TxOut.length; omega
      · have hsc := h2.script
        have hne : q.drop 8 ≠ [] := by
          intro h0
          have := congrArg List.length h0
          rw [List.length_drop, List.length_nil] at this; omega
        rcases hsc with ⟨h0, _⟩ | ⟨_, _, hs⟩ | ⟨d, hs, _, hH⟩
        · exact absurd h0 hne
        · obtain ⟨_, _, b, r', hq, hl, h | h⟩ := hs
          · have hr4 : r'.length ≤ 4 := by by_contra hh; exact h.2.1 (Or.inl (by omega))
            have hql := congrArg List.length hq
            rw [List.length_drop, List.length_cons] at hql
            refine ⟨by unfold TxOut.length; omega, ?_⟩
            intro heq
            have hx0 : xs = [] := by
              apply List.length_eq_zero_iff.mp
              by_contra hne0
              unfold TxOut.length at heq h9
              omega
            subst hx0
            refine ⟨[], q.take 8, b, r', rfl, ?_, by simp, by simp; omega, h.1, h.2.1⟩
            rw [← hq]; simp
          · obtain ⟨g1, g2, g3, g4, g5, g6, _⟩ := h
            have hql := congrArg List.length hq
            rw [List.length_drop, List.length_cons] at hql
            rw [List.length_drop] at g6
            have hlt : q.length < x.length := by
              unfold TxOut.length Script.length
              rw [g5] at g6 ⊢
              rw [lenVarIntN_eq _ (by omega), g3]; omega
            exact ⟨by omega, by omega⟩
        · exfalso
          unfold readOut at hmore
          rw [if_neg (by omega), hs] at hmore
          cases hmore
    · have hm2 : readMany readOut xs.length r = .more := by
        cases e : readMany readOut xs.length r with
        | more => rfl
        | bad => rw [List.length_cons, readMany_ok_bad _ h1 e] at hm; cases hm
        | ok ys r2 => rw [List.length_cons, readMany_ok_ok _ h1 e] at hm; cases hm
      obtain ⟨i1, i2⟩ := seqMid_outs xs r hm2 h4
      have hs := codecOut.sound _ _ _ h1
      have hl := TxOut.length_eq _ _ h3 (by have := hs.2.script; omega)
      have hql : q.length = x.length + r.length := by rw [hs.1, List.length_append, hl]
      refine ⟨by omega, fun heq => ?_⟩
      obtain ⟨os, a, b, y, k1, k2, k3, k4, k5, k6⟩ := i2 (by omega)
      refine ⟨d :: os, a, b, y, by simp [k1], by rw [hs.1, k2]; simp, ?_, k4, k5, k6⟩
      intro z hz
      rcases List.mem_cons.mp hz with rfl | hz
      · exact hs.2
      · exact k3 z hz

/-! #### Witnesses -/

/-- Only the witness may differ. -/
def TxIn.Same (t t' : TxIn) : Prop := t' = { t with witness := t'.witness }

theorem parseWitness_same : ∀ (xs : List TxIn) (s : PStream), List.Forall₂ TxIn.Same xs (Tx.parseAll Tx.parseWitness xs s).1
  | [], _ => .nil
  | x :: xs, s => by unfold Tx.parseAll; exact .cons rfl (parseWitness_same xs _)

/-- The witnesses after a first pass over the bytes `c`. -/
def WitsRes (xs : List TxIn) (c : Bytes) (xs' : List TxIn) (n : Nat) (s' : PStream) : Prop :=
  match readMany readWitness xs.length c with
  | .ok ws r => List.Forall₂ (fun (t : TxIn) w => t.witness.status = .done ∧ t.witness.Holds w) xs' ws ∧ n + r.length = c.length ∧ s' = .of r
  | .bad => ∃ pre x post, xs' = pre ++ x :: post ∧ (∀ a ∈ pre, a.witness.status = .done) ∧ x.witness.status.Stopped
  | .more => n = c.length ∧ s' = .of [] ∧
      ((∃ pre x post, xs' = pre ++ x :: post ∧ (∀ a ∈ pre, ¬ a.witness.status.Stopped) ∧ x.witness.status.Stopped) ∨
       ∃ pre x ws q, xs' = pre ++ [x] ∧ c = ws.flatMap witnessBytes ++ q ∧
         List.Forall₂ (fun (t : TxIn) w => t.witness.status = .done ∧ t.witness.Holds w) pre ws ∧
         (∀ w ∈ ws, w.length < 253 ∧ ∀ e ∈ w, e.length < 2 ^ 31) ∧
         (x.witness.status = .incomplete ∨
          ∃ n es q', Witness.CutAt q n es q' ∧ x.witness.status = .done ∧ n = es.length + 1 ∧ Witness.Phantom q' ∧
            x.witness.numElements = n ∧ x.witness.arr = Witness.flat es))

theorem parseAll_cons {α : Type} (f : α → PStream → α × Nat × PStream) (x : α) (xs : List α) (s : PStream) : Tx.parseAll f (x :: xs) s =
    ((f x s).1 :: (Tx.parseAll f xs (f x s).2.2).1, (f x s).2.1 + (Tx.parseAll f xs (f x s).2.2).2.1, (Tx.parseAll f xs (f x s).2.2).2.2) := rfl

theorem parseWitness_eq (x : TxIn) (s : PStream) : Tx.parseWitness x s =
    ({ x with witness := (x.witness.fromStream s).1 }, (x.witness.fromStream s).2.1, (x.witness.fromStream s).2.2) := rfl

/-- Undefined behaviour in a pass over the witnesses. -/
theorem parseWitness_wide : ∀ (xs : List TxIn) (c : Bytes), (∀ x ∈ xs, x.witness.status = .done) →
    ∀ y ∈ (Tx.parseAll Tx.parseWitness xs (.of c)).1, y.witness.status = .ub → Wide c
  | [], _, _ => by simp [Tx.parseAll]
  | x :: xs, c, h => by
    have hx := h x (by simp)
    have key : ((x.witness.fromStream (.of c)).1.status = .ub → Wide c) ∧ ∃ r, (x.witness.fromStream (.of c)).2.2 = .of r ∧ r <:+ c := by
      by_cases hc : c = []
      · subst hc
        obtain ⟨f1, f2⟩ := Witness.fromStream_empty x.witness hx
        exact ⟨fun hu => (by rw [f1] at hu; cases hu), [], by rw [f2], List.suffix_rfl⟩
      · have hf := Witness.feed x.witness [] c (Or.inl ⟨hx, rfl, hc⟩)
        unfold Witness.Outcome at hf
        rw [List.nil_append] at hf
        cases e : readWitness c with
        | bad => rw [e] at hf; exact ⟨fun hu => Witness.wideWitness_wide c (hf.2.1.mp hu), hf.2.2⟩
        | more =>
          rw [e] at hf
          refine ⟨fun hu => ?_, [], hf.2.1, List.nil_suffix⟩
          rcases hf.2.2 with ⟨g, _⟩ | ⟨_, _, _, _, g | ⟨g, _⟩⟩ <;> (rw [g] at hu; cases hu)
        | ok ds r =>
          rw [e] at hf
          refine ⟨fun hu => (by rw [hf.1] at hu; cases hu), r, hf.2.2.2, ?_⟩
          rw [(codecWitness.sound _ _ _ e).1]; exact List.suffix_append _ _
    intro y hy hu
    obtain ⟨k1, r, k2, k3⟩ := key
    rw [parseAll_cons, parseWitness_eq, k2] at hy
    rcases List.mem_cons.mp hy with rfl | hy
    · exact k1 hu
    · exact (parseWitness_wide xs r (fun z hz => h z (by simp [hz])) y hy hu).mono k3.isInfix

theorem parseWitness_spec : ∀ (xs : List TxIn) (c : Bytes), (∀ x ∈ xs, x.witness.status = .done) →
    WitsRes xs c (Tx.parseAll Tx.parseWitness xs (.of c)).1 (Tx.parseAll Tx.parseWitness xs (.of c)).2.1 (Tx.parseAll Tx.parseWitness xs (.of c)).2.2
  | [], c, _ => by simp [WitsRes, readMany, Tx.parseAll]
  | x :: xs, c, h => by
    have hx := h x (by simp)
    have hxs : ∀ y ∈ xs, y.witness.status = .done := fun y hy => h y (by simp [hy])
    have ih : ∀ r, _ := fun r => parseWitness_spec xs r hxs
    have empty : (Tx.parseAll Tx.parseWitness xs (.of [])).2.1 = 0 ∧ (Tx.parseAll Tx.parseWitness xs (.of [])).2.2 = .of [] ∧
        (xs ≠ [] → ∃ y post, (Tx.parseAll Tx.parseWitness xs (.of [])).1 = y :: post ∧ y.witness.status.Stopped) := by
      have i := ih []
      unfold WitsRes at i
      cases xs with
      | nil => simp [Tx.parseAll]
      | cons y ys =>
        rw [List.length_cons, readMany_more _ (show readWitness [] = .more from rfl)] at i
        refine ⟨i.1, i.2.1, fun _ => ?_⟩
        unfold Tx.parseAll
        exact ⟨_, _, rfl, Or.inl (Witness.fromStream_empty y.witness (hxs y (by simp))).1⟩
    unfold WitsRes
    rw [List.length_cons]
    rw [parseAll_cons, parseWitness_eq]
    by_cases hc : c = []
    · subst hc
      obtain ⟨f1, f2⟩ := Witness.fromStream_empty x.witness hx
      rw [readMany_more _ (show readWitness [] = .more from rfl)]
      generalize x.witness.fromStream (.of []) = fx at f1 f2
      obtain ⟨w', n, s'⟩ := fx
      cases f2
      obtain ⟨e1, e2, _⟩ := empty
      refine ⟨by simp only; rw [e1]; rfl, e2, Or.inl ⟨[], _, _, rfl, by simp, Or.inl f1⟩⟩
    · have hf := Witness.feed x.witness [] c (Or.inl ⟨hx, rfl, hc⟩)
      unfold Witness.Outcome at hf
      rw [List.nil_append] at hf
      generalize x.witness.fromStream (.of c) = fx at hf
      obtain ⟨w', n, s'⟩ := fx
      simp only at hf ⊢
      cases e : readWitness c with
      | bad =>
        rw [e] at hf
        rw [readMany_bad _ e]
        exact ⟨[], _, _, rfl, by simp, hf.1⟩
      | more =>
        rw [e] at hf
        rw [readMany_more _ e]
        obtain ⟨g1, g2, g3⟩ := hf
        subst g2
        obtain ⟨e1, e2, e3⟩ := empty
        refine ⟨by rw [e1, g1]; rfl, e2, ?_⟩
        by_cases hs : w'.status.Stopped
        · exact Or.inl ⟨[], _, _, rfl, by simp, hs⟩
        by_cases hxs0 : xs = []
        · subst hxs0
          right
          refine ⟨[], _, [], c, rfl, rfl, .nil, by simp, ?_⟩
          rcases g3 with ⟨g3, _⟩ | ⟨n, es, q, k1, k2 | k2⟩
          · exact Or.inl g3
          · exact Or.inl k2
          · exact Or.inr ⟨n, es, q, k1, k2⟩
        · left
          obtain ⟨y, post, k1, k2⟩ := e3 hxs0
          exact ⟨[_], y, post, by rw [k1]; rfl, by simpa using hs, k2⟩
      | ok d r =>
        rw [e] at hf
        obtain ⟨g1, g2, g3, g4⟩ := hf
        subst g4
        have i := ih r
        unfold WitsRes at i
        cases e2 : readMany readWitness xs.length r with
        | ok ws r2 =>
          rw [e2] at i
          rw [readMany_ok_ok _ e e2]
          exact ⟨.cons ⟨g1, g2⟩ i.1, by have := i.2.1; omega, i.2.2⟩
        | bad =>
          rw [e2] at i
          rw [readMany_ok_bad _ e e2]
          obtain ⟨pre, y, post, k1, k2, k3⟩ := i
          refine ⟨_ :: pre, y, post, by rw [k1]; rfl, ?_, k3⟩
          intro a ha
          rcases List.mem_cons.mp ha with rfl | ha
          · exact g1
          · exact k2 a ha
        | more =>
          rw [e2] at i
          rw [readMany_ok_more _ e e2]
          obtain ⟨i1, i2, i3⟩ := i
          refine ⟨by omega, i2, ?_⟩
          rcases i3 with ⟨pre, y, post, k1, k2, k3⟩ | ⟨pre, y, ws, q, k1, k2, k3, k4, k5⟩
          · left
            refine ⟨_ :: pre, y, post, by rw [k1]; rfl, ?_, k3⟩
            intro a ha
            rcases List.mem_cons.mp ha with rfl | ha
            · simp only; rw [g1]; exact not_stopped_done
            · exact k2 a ha
          · right
            have hs := codecWitness.sound _ _ _ e
            refine ⟨_ :: pre, y, d :: ws, q, by rw [k1]; rfl, by rw [hs.1, k2]; simp, .cons ⟨g1, g2⟩ k3, ?_, k5⟩
            intro w hw
            rcases List.mem_cons.mp hw with rfl | hw
            · exact hs.2
            · exact k4 w hw

/-- No undefined behaviour in a pass over witnesses which are cut short. -/
theorem parseWitness_cut : ∀ (xs : List TxIn) (c : Bytes), (∀ x ∈ xs, x.witness.status = .done) → readMany readWitness xs.length c = .more →
    ∀ y ∈ (Tx.parseAll Tx.parseWitness xs (.of c)).1, y.witness.status ≠ .ub
  | [], _, _, _ => by simp [Tx.parseAll]
  | x :: xs, c, h, hm => by
    have hx := h x (by simp)
    have hxs : ∀ y ∈ xs, y.witness.status = .done := fun y hy => h y (by simp [hy])
    have hnil : ∀ y ∈ (Tx.parseAll Tx.parseWitness xs (.of [])).1, y.witness.status ≠ .ub := by
      intro y hy hu
      obtain ⟨a, b, e, -⟩ := parseWitness_wide xs [] hxs y hy hu
      cases a <;> cases e
    rw [parseAll_cons, parseWitness_eq]
    intro y hy
    by_cases hc : c = []
    · subst hc
      obtain ⟨f1, f2⟩ := Witness.fromStream_empty x.witness hx
      rw [f2] at hy
      rcases List.mem_cons.mp hy with rfl | hy
      · dsimp only; rw [f1]; simp
      · exact hnil y hy
    have hf := Witness.feed x.witness [] c (Or.inl ⟨hx, rfl, hc⟩)
    unfold Witness.Outcome at hf
    rw [List.nil_append] at hf
    cases e : readWitness c with
    | bad => rw [List.length_cons, readMany_bad _ e] at hm; cases hm
    | more =>
      rw [e] at hf
      rw [hf.2.1] at hy
      rcases List.mem_cons.mp hy with rfl | hy
      · dsimp only
        rcases hf.2.2 with ⟨g, _⟩ | ⟨_, _, _, _, g | ⟨g, _⟩⟩ <;> (rw [g]; simp)
      · exact hnil y hy
    | ok ds r =>
      rw [e] at hf
      rw [hf.2.2.2] at hy
      rcases List.mem_cons.mp hy with rfl | hy
      · dsimp only; rw [hf.1]; simp
      · refine parseWitness_cut xs r hxs ?_ y hy
        cases e2 : readMany readWitness xs.length r with
        | more => rfl
        | bad => rw [List.length_cons, readMany_ok_bad _ e e2] at hm; cases hm
        | ok ys r2 => rw [List.length_cons, readMany_ok_ok _ e e2] at hm; cases hm

end UB
