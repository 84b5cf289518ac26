import Verif.Spec.HeapProgram
import Verif.Lemmas.HeapWitness
import Mathlib.Data.Finset.Card

/-! The state of a program on the heap against the values of its variables. -/

namespace UB
open Heap Spec

/-- The blocks a variable owns. -/
def Obj.owned : Option Obj → Finset Nat
  | some (.script o) => own o.ptr
  | some (.witness o) => own (if o.witnessLen = 0 then 0 else o.ptr)
  | none => ∅

/-- A variable has the given value. -/
def Matches (h : Heap) : Option Obj → Option Val → Prop
  | none, none => True
  | some (.script o), some (.script v) => ∃ p, o = HScript.of v p ∧ At h p v.arr ∧ v.Sized
  | some (.witness o), some (.witness v e) => ∃ p, o = HWitness.of v p ∧ WAt h p v.arr (decide (v.arr = []) && e) ∧ (v.arr ≠ [] → e = true)
  | _, _ => False

theorem owned_script (v : Script) (p : Nat) : Obj.owned (some (.script (HScript.of v p))) = own p := rfl

theorem owned_witness (v : Witness) (p : Nat) : Obj.owned (some (.witness (HWitness.of v p))) = own (wptr p v.arr) := by
  unfold Obj.owned wptr HWitness.of
  dsimp only
  by_cases h : v.arr = [] <;> simp [h]

/-- The variables have the given values, every block has at most one owner, and the blocks without owner are those of `L`. -/
structure Inv (W : World) (vs : Vals) (L : Finset Nat) : Prop where
  wf : W.heap.Wf
  vals : ∀ x, Matches W.heap (W.objs x) (vs x)
  sep : ∀ x y, x ≠ y → Disjoint (Obj.owned (W.objs x)) (Obj.owned (W.objs y))
  lost : ∀ x, Disjoint (Obj.owned (W.objs x)) L
  live : ∀ q, W.heap.blocks q ≠ none ↔ (∃ x, q ∈ Obj.owned (W.objs x)) ∨ q ∈ L

theorem Inv.init (denies : Nat → Nat → Bool) : Inv (World.init denies) (fun _ => none) ∅ where
  wf := ⟨rfl, fun _ _ => rfl, fun _ _ _ h => by cases h⟩
  vals := fun _ => trivial
  sep := fun _ _ _ => by simp [World.init, Obj.owned]
  lost := fun _ => by simp
  live := fun q => by simp [World.init, Obj.owned]

theorem Matches.keep {h h' : Heap} {A B : Finset Nat} (s : Step h h' A B) (w : h.Wf) (hA : ∀ q ∈ A, h.blocks q ≠ none) {o : Option Obj}
    {v : Option Val} (m : Matches h o v) (hd : ∀ q ∈ Obj.owned o, q ∉ A) : Matches h' o v := by
  match o, v, m with
  | none, none, _ => trivial
  | some (.script o), some (.script v), ⟨p, e, a, hs⟩ =>
    subst e
    exact ⟨p, rfl, a.keep s w hd, hs⟩
  | some (.witness o), some (.witness v e), ⟨p, eo, a, hs⟩ =>
    subst eo
    rw [owned_witness] at hd
    exact ⟨p, rfl, a.keep s w hA hd, hs⟩

/-- The variable `x` gets a new value. -/
theorem Inv.put {W : World} {vs : Vals} {L : Finset Nat} (I : Inv W vs L) {x : Nat} {h' : Heap} {o : Option Obj} {v : Option Val} {E : Finset Nat}
    (s : Step W.heap h' (Obj.owned (W.objs x)) (Obj.owned o ∪ E)) (d : Disjoint (Obj.owned o) E) (m : Matches h' o v) :
    Inv (W.put x o h') (vs.put x v) (L ∪ E) ∧ Disjoint L E := by
  have hA : ∀ q ∈ Obj.owned (W.objs x), W.heap.blocks q ≠ none := fun q hq => (I.live q).2 (Or.inl ⟨x, hq⟩)
  have notB : ∀ q, q ∉ Obj.owned (W.objs x) → W.heap.blocks q ≠ none → q ∉ Obj.owned o ∪ E := by
    intro q hq hl
    cases hb : W.heap.blocks q with
    | none => exact absurd hb hl
    | some b => exact s.notIn I.wf hq hb
  have hoth : ∀ y, y ≠ x → ∀ q ∈ Obj.owned (W.objs y), q ∉ Obj.owned o ∪ E := by
    intro y hy q hq
    exact notB q (Finset.disjoint_left.1 (I.sep y x hy) hq) ((I.live q).2 (Or.inl ⟨y, hq⟩))
  have hL : ∀ q ∈ L, q ∉ Obj.owned o ∪ E := by
    intro q hq
    exact notB q (fun hc => Finset.disjoint_left.1 (I.lost x) hc hq) ((I.live q).2 (Or.inr hq))
  have ho : ∀ y, (W.put x o h').objs y = if y = x then o else W.objs y := fun _ => rfl
  refine ⟨⟨s.wf, ?_, ?_, ?_, ?_⟩, ?_⟩
  · intro y
    rw [ho]
    unfold Vals.put
    by_cases hy : y = x
    · rw [if_pos hy, if_pos hy]; exact m
    · rw [if_neg hy, if_neg hy]
      exact (I.vals y).keep s I.wf hA fun q hq => Finset.disjoint_left.1 (I.sep y x hy) hq
  · intro y z hyz
    rw [ho, ho]
    by_cases hy : y = x
    · have hz : z ≠ x := fun e => hyz (hy.trans e.symm)
      rw [if_pos hy, if_neg hz, Finset.disjoint_left]
      intro q hq hc
      exact hoth z hz q hc (Finset.mem_union_left _ hq)
    · rw [if_neg hy]
      by_cases hz : z = x
      · rw [if_pos hz, Finset.disjoint_left]
        intro q hq hc
        exact hoth y hy q hq (Finset.mem_union_left _ hc)
      · rw [if_neg hz]
        exact I.sep y z hyz
  · intro y
    rw [ho, Finset.disjoint_union_right]
    by_cases hy : y = x
    · rw [if_pos hy]
      refine ⟨?_, d⟩
      rw [Finset.disjoint_left]
      intro q hq hc
      exact hL q hc (Finset.mem_union_left _ hq)
    · rw [if_neg hy]
      refine ⟨I.lost y, ?_⟩
      rw [Finset.disjoint_left]
      intro q hq hc
      exact hoth y hy q hq (Finset.mem_union_right _ hc)
  · intro q
    show h'.blocks q ≠ none ↔ _
    constructor
    · intro hl
      by_cases hB : q ∈ Obj.owned o ∪ E
      · rcases Finset.mem_union.1 hB with hB | hB
        · exact Or.inl ⟨x, by rw [ho, if_pos rfl]; exact hB⟩
        · exact Or.inr (Finset.mem_union_right _ hB)
      · have hq : ¬ (q ∈ Obj.owned (W.objs x) ∨ q > W.heap.next) := fun hc => hl (s.dead q hc hB)
        rw [not_or, not_lt] at hq
        rw [s.other q hq.1 hq.2] at hl
        rcases (I.live q).1 hl with ⟨y, hy⟩ | hq2
        · refine Or.inl ⟨y, ?_⟩
          have : y ≠ x := by rintro rfl; exact hq.1 hy
          rw [ho, if_neg this]
          exact hy
        · exact Or.inr (Finset.mem_union_left _ hq2)
    · rintro (⟨y, hy⟩ | hq)
      · rw [ho] at hy
        by_cases hyx : y = x
        · rw [if_pos hyx] at hy
          exact s.live q (Finset.mem_union_left _ hy)
        · rw [if_neg hyx] at hy
          have hl := (I.live q).2 (Or.inl ⟨y, hy⟩)
          rwa [s.other q (Finset.disjoint_left.1 (I.sep y x hyx) hy) (by
            cases hb : W.heap.blocks q with
            | none => exact absurd hb hl
            | some b => exact I.wf.le hb)]
      · rcases Finset.mem_union.1 hq with hq | hq
        · have hl := (I.live q).2 (Or.inr hq)
          rwa [s.other q (fun hc => Finset.disjoint_left.1 (I.lost x) hc hq) (by
            cases hb : W.heap.blocks q with
            | none => exact absurd hb hl
            | some b => exact I.wf.le hb)]
        · exact s.live q (Finset.mem_union_right _ hq)
  · rw [Finset.disjoint_left]
    intro q hq hc
    exact hL q hq (Finset.mem_union_right _ hc)


theorem Inv.script {W : World} {vs : Vals} {L : Finset Nat} (I : Inv W vs L) {x : Nat} {v : Script} (h : vs x = some (.script v)) :
    ∃ p, W.objs x = some (.script (HScript.of v p)) ∧ At W.heap p v.arr ∧ v.Sized := by
  have m := I.vals x
  rw [h] at m
  cases ho : W.objs x with
  | none => rw [ho] at m; exact m.elim
  | some o =>
    rw [ho] at m
    cases o with
    | script o =>
      obtain ⟨p, e, a, hs⟩ := m
      exact ⟨p, by rw [e], a, hs⟩
    | witness o => exact m.elim

theorem Inv.witness {W : World} {vs : Vals} {L : Finset Nat} (I : Inv W vs L) {x : Nat} {v : Witness} {e : Bool} (h : vs x = some (.witness v e)) :
    ∃ p, W.objs x = some (.witness (HWitness.of v p)) ∧ WAt W.heap p v.arr (decide (v.arr = []) && e) ∧ (v.arr ≠ [] → e = true) := by
  have m := I.vals x
  rw [h] at m
  cases ho : W.objs x with
  | none => rw [ho] at m; exact m.elim
  | some o =>
    rw [ho] at m
    cases o with
    | script o => exact m.elim
    | witness o =>
      obtain ⟨p, eo, a, hs⟩ := m
      exact ⟨p, by rw [eo], a, hs⟩

theorem Inv.none {W : World} {vs : Vals} {L : Finset Nat} (I : Inv W vs L) {x : Nat} (h : vs x = none) : W.objs x = none := by
  have m := I.vals x
  rw [h] at m
  cases ho : W.objs x with
  | none => rfl
  | some o => rw [ho] at m; cases o <;> exact m.elim

/-- No script without length holds a block. -/
def Tidy (W : World) : Prop := ∀ x o, W.objs x = some (.script o) → o.scriptLen = 0 → o.ptr = 0

theorem Tidy.put {W : World} (t : Tidy W) {x : Nat} {h : Heap} {o : Option Obj} (ho : ∀ s, o = some (.script s) → s.scriptLen = 0 → s.ptr = 0) :
    Tidy (W.put x o h) := by
  intro y s e
  have : (W.put x o h).objs y = if y = x then o else W.objs y := rfl
  rw [this] at e
  split at e
  · exact ho s e
  · exact t y s e

def AllFits (vs : Vals) : Prop := ∀ x, vs.Fits x

theorem AllFits.put {vs : Vals} (f : AllFits vs) {x : Nat} {v : Option Val} (hv : ∀ s, v = some (.script s) → s.Fits) : AllFits (vs.put x v) := by
  intro y s e
  unfold Vals.put at e
  split at e
  · exact hv s e
  · exact f y s e

theorem Script.Fits.sized {v : Script} (h : v.Fits) : v.Sized := ⟨fun _ => h.1, h.2⟩

/-- A statement that parses. -/
def Op.parses : Op → Prop
  | .parseScript _ _ => True
  | .parseWitness _ _ => True
  | _ => False

/-- What one statement does. -/
structure StepsTo (W : World) (vs : Vals) (L : Finset Nat) (op : Op) (W' : World) (vs' : Vals) (E : Finset Nat) : Prop where
  run : W.step op = .ok W'
  inv : Inv W' vs' (L ∪ E)
  dis : Disjoint L E
  denies : W'.heap.denies = W.heap.denies
  val : W.heap.Generous → (vs.Small ∧ (vs.step op).Small) → vs' = vs.step op
  fits : AllFits vs → ¬ op.parses → AllFits vs'
  neat : Tidy W → W.heap.Generous → (vs.Small ∧ (vs.step op).Small) → Neat vs op → Tidy W' ∧ E.card = losses vs op

theorem stepsTo_noop {W : World} {vs : Vals} {L : Finset Nat} (I : Inv W vs L) {op : Op} (h1 : W.step op = .ok W) (h2 : vs.step op = vs)
    (h3 : losses vs op = 0) : ∃ W' vs' E, StepsTo W vs L op W' vs' E :=
  ⟨W, vs, ∅, h1, by simpa using I, by simp, rfl, fun _ _ => h2.symm, fun f _ => f, fun t _ _ _ => ⟨t, by simp [h3]⟩⟩

/-- A script variable `x`, old address `p`, gets the value `v'` at `p'`. -/
theorem stepsTo_script {W : World} {vs : Vals} {L : Finset Nat} (I : Inv W vs L) {op : Op} {x p p' : Nat} {v' : Script} {h' : Heap} {E : Finset Nat}
    (hx : Obj.owned (W.objs x) = own p) (h1 : W.step op = .ok (W.put x (some (.script (HScript.of v' p'))) h')) (a : At h' p' v'.arr)
    (hs : v'.Sized) (hf : ¬ op.parses → v'.Fits) (m : Moves W.heap h' p p' E)
    (hv : W.heap.Generous → (vs.Small ∧ (vs.step op).Small) → vs.step op = vs.put x (some (.script v')))
    (hn : Tidy W → W.heap.Generous → (vs.Small ∧ (vs.step op).Small) → Neat vs op → (v'.scriptLen = 0 → p' = 0) ∧ E.card = losses vs op) :
    ∃ W' vs' E, StepsTo W vs L op W' vs' E := by
  obtain ⟨I', d⟩ := I.put (x := x) (h' := h') (o := some (.script (HScript.of v' p'))) (v := some (.script v')) (E := E)
    (by rw [hx, owned_script]; exact m.1) (by rw [owned_script]; exact m.2) ⟨p', rfl, a, hs⟩
  refine ⟨_, _, E, h1, I', d, m.1.denies, fun g sm => (hv g sm).symm, fun f hp => f.put fun s e => ?_, fun t g sm n => ?_⟩
  · injection e with e
    injection e with e
    rw [← e]
    exact hf hp
  · obtain ⟨n1, n2⟩ := hn t g sm n
    refine ⟨t.put fun s e => ?_, n2⟩
    injection e with e
    injection e with e
    rw [← e]
    exact n1

/-- A witness variable `x`, old value `v` at `p`, gets the value `v'` at `p'`. -/
theorem stepsTo_witness {W : World} {vs : Vals} {L : Finset Nat} (I : Inv W vs L) {op : Op} {x p' : Nat} {A : Finset Nat} {old : Bytes} {v' : Witness} {e st' : Bool} {h' : Heap}
    (hx : Obj.owned (W.objs x) = A) (h1 : W.step op = .ok (W.put x (some (.witness (HWitness.of v' p'))) h')) (a : WAt h' p' v'.arr st')
    (he : old ≠ [] → e = true) (s : Step W.heap h' A (own (wptr p' v'.arr)))
    (hv : W.heap.Generous → (vs.Small ∧ (vs.step op).Small) → vs.step op = vs.put x (Vals.wit v' e) ∧ st' = restale old v'.arr (decide (old = []) && e))
    (hl : losses vs op = 0) : ∃ W' vs' E, StepsTo W vs L op W' vs' E := by
  have hm : Matches h' (some (.witness (HWitness.of v' p'))) (some (.witness v' (if v'.arr = [] then st' else true))) := by
    refine ⟨p', rfl, ?_, fun hb => if_neg hb⟩
    by_cases hb : v'.arr = []
    · rw [hb] at a ⊢
      simpa using a
    · exact wat_some _ hb (a.block hb)
  obtain ⟨I', d⟩ := I.put (x := x) (h' := h') (o := some (.witness (HWitness.of v' p'))) (E := ∅)
    (by rw [hx, owned_witness, Finset.union_empty]; exact s) (by simp) hm
  refine ⟨_, _, ∅, h1, I', d, s.denies, fun g sm => ?_, fun f hp => f.put fun s e => ?_, fun t g sm n => ⟨t.put fun s e => ?_, by simp [hl]⟩⟩
  · obtain ⟨h2, h3⟩ := hv g sm
    rw [h2, Vals.wit, h3]
    congr 3
    by_cases hb : v'.arr = []
    · rw [if_pos hb]
      unfold restale
      by_cases ho : old = []
      · simp [hb, ho]
      · simp [hb, ho, he ho]
    · rw [if_neg hb]
      simp [hb]
  · injection e with e; cases e
  · injection e with e; cases e

/-- Parsing to the end leaves no block with a script without length. -/
theorem HScript.fromStream_neat {h : Heap} {v : Script} {p : Nat} (hd : v.status = .done) (ht : v.scriptLen = 0 → p = 0) (hpos : 0 < v.scriptLen → p ≠ 0)
    (s : PStream) {o : HScript} {r : Nat} {s' : PStream} {h' : Heap} (e : (of v p).fromStream s h = .ok (o, r, s', h')) (ho : o.status = .done) :
    o.scriptLen = 0 → o.ptr = 0 := by
  intro h0
  unfold fromStream at e
  rw [if_neg (by rw [show (of v p).status = .done from hd]; simp)] at e
  cases hst : (of v p).start h with
  | ub => rw [hst] at e; cases e
  | ok x =>
    obtain ⟨sc1, h1⟩ := x
    -- the state before the first byte
    obtain ⟨hp1, hb1, hs1, hl1⟩ : sc1.ptr = 0 ∧ sc1.bytesParsed = 0 ∧ sc1.status = .incomplete ∧ sc1.scriptLen = 0 := by
      unfold start at hst
      rw [if_pos (show (of v p).status = .done from hd)] at hst
      unfold clear at hst
      by_cases hc : v.scriptLen > 0
      · rw [if_pos (show ({ of v p with bytesParsed := 0 } : HScript).scriptLen > 0 ∧ ({ of v p with bytesParsed := 0 } : HScript).ptr ≠ 0 from ⟨hc, hpos hc⟩)] at hst
        cases hfr : h.free ({ of v p with bytesParsed := 0 } : HScript).ptr with
        | ub => rw [hfr] at hst; cases hst
        | ok h2 =>
          rw [hfr] at hst
          injection hst with hst
          injection hst with hst _
          rw [← hst]
          exact ⟨rfl, rfl, rfl, rfl⟩
      · rw [if_neg (fun c => hc c.1)] at hst
        injection hst with hst
        injection hst with hst _
        rw [← hst]
        exact ⟨ht (by omega), rfl, rfl, by show v.scriptLen = 0; omega⟩
    rw [hst, C.bind_ok] at e
    dsimp only at e
    -- what the first byte decides
    obtain ⟨sc2, br2, s2, h2, hpre, hcase⟩ : ∃ sc2 br2 s2 h2, sc1.readPrefix h1 s = (sc2, br2, s2, h2) ∧
        (sc2.status = .failed ∨ sc2.status = .incomplete ∧ sc2.bytesParsed = 0 ∧
          ((s2.avail = false ∧ br2 = 0 ∧ sc2.scriptLen = 0) ∨ (br2 = 1 ∧ sc2.lenLen = 1 ∧ (sc2.scriptLen = 0 → sc2.ptr = 0)) ∨
            (br2 = 1 ∧ 3 ≤ sc2.lenLen ∧ sc2.scriptLen = 0))) := by
      unfold readPrefix
      by_cases ha : s.avail = true
      · rw [if_pos ⟨ha, hb1⟩]
        dsimp only
        by_cases hlt : s.readByte.1 < 0xfd
        · rw [if_pos hlt]
          by_cases hz : s.readByte.1.toNat > 0
          · rw [if_pos hz]
            split
            · exact ⟨_, _, _, _, rfl, Or.inl rfl⟩
            · refine ⟨_, _, _, _, rfl, Or.inr ⟨hs1, hb1, Or.inr (Or.inl ⟨rfl, rfl, fun c => ?_⟩)⟩⟩
              exact absurd (show s.readByte.1.toNat = 0 from c) (by omega)
          · rw [if_neg hz]
            dsimp only
            rw [if_neg (fun c => hz c.2)]
            exact ⟨_, _, _, _, rfl, Or.inr ⟨hs1, hb1, Or.inr (Or.inl ⟨rfl, rfl, fun _ => hp1⟩)⟩⟩
        · rw [if_neg hlt]
          refine ⟨_, _, _, _, rfl, Or.inr ⟨hs1, hb1, Or.inr (Or.inr ⟨rfl, ?_, rfl⟩)⟩⟩
          have : 0xfd ≤ s.readByte.1.toNat := by
            rw [UInt8.lt_iff_toNat_lt] at hlt
            simpa using hlt
          have : 2 ^ 1 ≤ 2 ^ (s.readByte.1.toNat - 0xfc) := Nat.pow_le_pow_right (by omega) (by omega)
          show 3 ≤ 1 + 2 ^ (s.readByte.1.toNat - 0xfc)
          omega
      · rw [if_neg (fun c => ha c.1)]
        exact ⟨_, _, _, _, rfl, Or.inr ⟨hs1, hb1, Or.inl ⟨by simpa using ha, rfl, hl1⟩⟩⟩
    rw [hpre] at e
    dsimp only at e
    by_cases hf : sc2.status = .failed
    · rw [if_pos hf] at e
      injection e with e
      injection e with e _
      rw [← e, hf] at ho
      cases ho
    · rw [if_neg hf] at e
      obtain ⟨hi2, hb2, hcase⟩ := hcase.resolve_left hf
      rw [hb2, Nat.zero_add] at e
      cases hll : lenLoop (sc2.lenLen - br2) sc2.scriptLen br2 s2 with
      | none => rw [hll] at e; cases e
      | some x =>
        obtain ⟨len, pos, s3⟩ := x
        rw [hll] at e
        dsimp only at e
        rw [Nat.sub_zero] at e
        cases hsw : ({ sc2 with bytesParsed := 0, scriptLen := len } : HScript).swap pos h2 with
        | ub => rw [hsw] at e; cases e
        | ok y =>
          obtain ⟨sc3, h3⟩ := y
          rw [hsw, C.bind_ok] at e
          dsimp only at e
          have h3c : sc3.status = .failed ∨ (sc3.status = .incomplete ∧ sc3.scriptLen = len ∧ sc3.lenLen = sc2.lenLen ∧ sc3.bytesParsed = 0 ∧
              (len = 0 → sc3.ptr = sc2.ptr)) := by
            unfold swap at hsw
            split at hsw
            · rename_i hc
              cases hfr : h2.free ({ sc2 with bytesParsed := 0, scriptLen := len } : HScript).ptr with
              | ub => rw [hfr] at hsw; cases hsw
              | ok h4 =>
                rw [hfr, C.bind_ok] at hsw
                dsimp only at hsw
                split at hsw
                · injection hsw with hsw
                  injection hsw with hsw _
                  rw [← hsw]
                  exact Or.inl rfl
                · injection hsw with hsw
                  injection hsw with hsw _
                  rw [← hsw]
                  refine Or.inr ⟨hi2, rfl, rfl, rfl, fun c => ?_⟩
                  have : len > 0 := hc.2
                  omega
            · injection hsw with hsw
              injection hsw with hsw _
              rw [← hsw]
              exact Or.inr ⟨hi2, rfl, rfl, rfl, fun _ => rfl⟩
          by_cases hf3 : sc3.status = .failed
          · rw [if_pos hf3] at e
            injection e with e
            injection e with e _
            rw [← e, hf3] at ho
            cases ho
          · rw [if_neg hf3] at e
            obtain ⟨hi3, hlen3, hll3, hbp3, hptr3⟩ := h3c.resolve_left hf3
            rw [hbp3, Nat.zero_add, hlen3, hll3] at e
            by_cases hsh : pos = sc2.lenLen ∧ lenVarIntN len ≠ sc2.lenLen
            · rw [if_pos hsh] at e
              injection e with e
              injection e with e _
              rw [← e] at ho
              cases ho
            · rw [if_neg hsh] at e
              unfold readBody at e
              dsimp only at e
              rw [hbp3, Nat.zero_add, hlen3, hll3] at e
              cases hwr : h3.write sc3.ptr (pos - sc2.lenLen) (s3.readN (len + sc2.lenLen - pos)).1 with
              | ub => rw [hwr] at e; cases e
              | ok h5 =>
                rw [hwr, C.bind_ok] at e
                injection e with e
                injection e with e _
                have e1 : o.scriptLen = len := by rw [← e]
                have e2 : o.ptr = sc3.ptr := by rw [← e]
                have e3 : o.status = if 0 + (pos + (s3.readN (len + sc2.lenLen - pos)).1.length) = len + sc2.lenLen then .done else sc3.status := by rw [← e]
                have hl0 : len = 0 := by rw [← e1]; exact h0
                subst hl0
                rw [e2, hptr3 rfl]
                rw [ho, hi3] at e3
                have hfull : 0 + (pos + (s3.readN (0 + sc2.lenLen - pos)).1.length) = 0 + sc2.lenLen := by
                  by_contra hc
                  rw [if_neg hc] at e3
                  cases e3
                have hne : ¬ pos = sc2.lenLen ∨ sc2.lenLen = 1 := by
                  by_contra hc
                  rw [not_or, not_not] at hc
                  exact hsh ⟨hc.1, fun c => hc.2 (by rw [← c]; decide)⟩
                rcases hcase with ⟨ha2, hbr, hsc⟩ | ⟨hbr, hl2, hp2⟩ | ⟨hbr, hl2, hsc⟩
                · have : pos = 0 ∧ s3 = s2 := by
                    rw [hbr, hsc] at hll
                    cases hfu : sc2.lenLen - 0 with
                    | zero => rw [hfu, lenLoop] at hll; injection hll with hll; injection hll with _ hll; injection hll with a b; exact ⟨a.symm, b.symm⟩
                    | succ n =>
                      rw [hfu, lenLoop, if_neg (by rw [ha2]; simp)] at hll
                      injection hll with hll; injection hll with _ hll; injection hll with a b; exact ⟨a.symm, b.symm⟩
                  rw [this.2, readN_none _ _ ha2, this.1] at hfull
                  rw [this.1] at hne
                  simp at hfull
                  omega
                · rw [hbr, hl2] at hll
                  simp only [lenLoop, Option.some.injEq, Prod.mk.injEq, Nat.sub_self] at hll
                  exact hp2 hll.1
                · rw [hbr, hsc] at hll
                  obtain ⟨f1, f2, f3, f4, -⟩ := lenLoop_facts _ _ _ _ _ _ _ hll (by simp)
                  rw [readN_none _ _ (f4 (by omega))] at hfull
                  simp at hfull
                  omega

theorem step_ok {W : World} {vs : Vals} {L : Finset Nat} (I : Inv W vs L) (op : Op) (ok : Allowed vs op) :
    ∃ W' vs' E, StepsTo W vs L op W' vs' E := by
  have w := I.wf
  cases op with
  | newScript x =>
    cases hx : vs x with
    | none =>
      have hW := I.none hx
      refine stepsTo_script I (x := x) (p := 0) (p' := 0) (v' := {}) (h' := W.heap) (E := ∅) (by rw [hW]; rfl) (by simp only [World.step, hW]; rfl)
        (at_null _) ⟨fun _ => Nat.le_refl 0, by simp⟩ (fun _ => ⟨Nat.le_refl 0, by simp⟩) (Moves.refl w (at_null _)) (fun _ _ => by simp only [Vals.step, hx])
        (fun _ _ _ _ => ⟨fun _ => rfl, rfl⟩)
    | some v =>
      have : ∃ o, W.objs x = some o := by
        cases v with
        | script v => exact ⟨_, (I.script hx).choose_spec.1⟩
        | witness v e => exact ⟨_, (I.witness hx).choose_spec.1⟩
      obtain ⟨o, ho⟩ := this
      exact stepsTo_noop I (by simp only [World.step, ho]) (by simp only [Vals.step, hx]) rfl
  | ofBuffer x data =>
    cases hx : vs x with
    | none =>
      have hW := I.none hx
      obtain ⟨v', p', r, h', E, e, a', hf, m, ht, hg, hz⟩ := HScript.pushData_ok w (v := {}) (p := 0) (at_null _) ⟨Nat.le_refl 0, by simp⟩ data
      refine stepsTo_script I (x := x) (p := 0) (by rw [hW]; rfl) (p' := p') (v' := v') (h' := h') (E := E) ?_ a' hf.sized (fun _ => hf) m ?_ ?_
      · simp only [World.step, hW, HScript.ofBuffer]
        rw [show ({} : HScript) = HScript.of {} 0 from rfl, e]
        rfl
      · intro g _
        simp only [Vals.step, hx, Script.ofBuffer]
        rw [← hg g]
      · intro _ _ _ n
        refine ⟨fun z => ?_, by rw [ht fun _ => rfl]; rfl⟩
        rcases hz n z with h | h
        · exact h
        · exact h.1
    | some v =>
      have : ∃ o, W.objs x = some o := by
        cases v with
        | script v => exact ⟨_, (I.script hx).choose_spec.1⟩
        | witness v e => exact ⟨_, (I.witness hx).choose_spec.1⟩
      obtain ⟨o, ho⟩ := this
      exact stepsTo_noop I (by simp only [World.step, ho]) (by simp only [Vals.step, hx]) rfl
  | copyScript x y =>
    cases hx : vs x with
    | none =>
      have hW := I.none hx
      cases hy : vs y with
      | none => exact stepsTo_noop I (by simp only [World.step, hW, I.none hy]) (by simp only [Vals.step, hx, hy]) rfl
      | some u =>
        cases u with
        | witness u e =>
          obtain ⟨q, hq, -⟩ := I.witness hy
          exact stepsTo_noop I (by simp only [World.step, hW, hq]) (by simp only [Vals.step, hx, hy]) rfl
        | script u =>
          obtain ⟨q, hq, aq, -⟩ := I.script hy
          obtain ⟨v', p', h', e, a', hf, s, hg, hz⟩ := HScript.copy_ok w aq (ok u hy)
          refine stepsTo_script I (x := x) (p := 0) (by rw [hW]; rfl) (p' := p') (v' := v') (h' := h') (E := ∅) ?_ a' hf.sized (fun _ => hf)
            (Moves.ofStep (by simpa using s)) ?_ ?_
          · simp only [World.step, hW, hq]
            rw [e]
            rfl
          · intro g sm
            simp only [Vals.step, hx, hy]
            rw [← hg g (by have := sm.1.1 y u hy; omega)]
          · intro _ _ _ _
            exact ⟨hz, rfl⟩
    | some v =>
      have : ∃ o, W.objs x = some o := by
        cases v with
        | script v => exact ⟨_, (I.script hx).choose_spec.1⟩
        | witness v e => exact ⟨_, (I.witness hx).choose_spec.1⟩
      obtain ⟨o, ho⟩ := this
      exact stepsTo_noop I (by simp only [World.step, ho]) (by simp only [Vals.step, hx]) rfl
  | assignScript x y =>
    cases hx : vs x with
    | none => exact stepsTo_noop I (by simp only [World.step, I.none hx]) (by simp only [Vals.step, hx]) rfl
    | some v =>
      cases v with
      | witness v e =>
        obtain ⟨p, hp, -⟩ := I.witness hx
        exact stepsTo_noop I (by simp only [World.step, hp]) (by simp only [Vals.step, hx]) rfl
      | script v =>
        obtain ⟨p, hp, ap, -⟩ := I.script hx
        cases hy : vs y with
        | none => exact stepsTo_noop I (by simp only [World.step, hp, I.none hy]) (by simp only [Vals.step, hx, hy]) rfl
        | some u =>
          cases u with
          | witness u e =>
            obtain ⟨q, hq, -⟩ := I.witness hy
            exact stepsTo_noop I (by simp only [World.step, hp, hq]) (by simp only [Vals.step, hx, hy]) rfl
          | script u =>
            obtain ⟨q, hq, aq, -⟩ := I.script hy
            by_cases hxy : x = y
            · exact stepsTo_noop I (by simp only [World.step, hp, hq, if_pos hxy]) (by simp only [Vals.step, hx, hy, if_pos hxy]) rfl
            · have hdis : ∀ z ∈ own q, z ∉ own p := by
                intro z hz hc
                have := I.sep y x (Ne.symm hxy)
                rw [hp, hq, owned_script, owned_script] at this
                exact Finset.disjoint_left.1 this hz hc
              obtain ⟨v', p', h', E, e, a', hf, m, ht, hg, hz⟩ := HScript.assign_ok w ap aq (ok.1 v hx) (ok.2 u hy) hdis
              refine stepsTo_script I (x := x) (p := p) (by rw [hp]; rfl) (p' := p') (v' := v') (h' := h') (E := E) ?_ a' hf.sized (fun _ => hf) m ?_ ?_
              · simp only [World.step, hp, hq, if_neg hxy]
                rw [e]
                rfl
              · intro g sm
                simp only [Vals.step, hx, hy, if_neg hxy]
                rw [← hg g (by have := sm.1.1 y u hy; omega)]
              · intro t _ _ _
                have tp : v.scriptLen = 0 → p = 0 := t x _ hp
                exact ⟨hz tp, by rw [ht tp]; rfl⟩
  | pushByte x code =>
    cases hx : vs x with
    | none => exact stepsTo_noop I (by simp only [World.step, I.none hx]) (by simp only [Vals.step, hx]) rfl
    | some v =>
      cases v with
      | witness v e =>
        obtain ⟨p, hp, -⟩ := I.witness hx
        exact stepsTo_noop I (by simp only [World.step, hp]) (by simp only [Vals.step, hx]) rfl
      | script v =>
        obtain ⟨p, hp, ap, -⟩ := I.script hx
        obtain ⟨v', p', r, h', E, e, a', hf, m, ht, hg, hz⟩ := HScript.pushData_ok w ap (ok v hx) [code]
        refine stepsTo_script I (x := x) (p := p) (by rw [hp]; rfl) (p' := p') (v' := v') (h' := h') (E := E) ?_ a' hf.sized (fun _ => hf) m ?_ ?_
        · simp only [World.step, hp, HScript.pushByte_eq]
          rw [e]
          rfl
        · intro g _
          simp only [Vals.step, hx]
          rw [show v.pushByte code = v.pushData [code] from rfl, ← hg g]
        · intro t _ _ _
          have tp : v.scriptLen = 0 → p = 0 := t x _ hp
          refine ⟨fun z => ?_, by rw [ht tp]; rfl⟩
          rcases hz (by simp) z with h | h
          · exact h
          · rw [h.1]; exact tp h.2
  | pushData x data =>
    cases hx : vs x with
    | none => exact stepsTo_noop I (by simp only [World.step, I.none hx]) (by simp only [Vals.step, hx]) rfl
    | some v =>
      cases v with
      | witness v e =>
        obtain ⟨p, hp, -⟩ := I.witness hx
        exact stepsTo_noop I (by simp only [World.step, hp]) (by simp only [Vals.step, hx]) rfl
      | script v =>
        obtain ⟨p, hp, ap, -⟩ := I.script hx
        obtain ⟨v', p', r, h', E, e, a', hf, m, ht, hg, hz⟩ := HScript.pushData_ok w ap (ok v hx) data
        refine stepsTo_script I (x := x) (p := p) (by rw [hp]; rfl) (p' := p') (v' := v') (h' := h') (E := E) ?_ a' hf.sized (fun _ => hf) m ?_ ?_
        · simp only [World.step, hp]
          rw [e]
          rfl
        · intro g _
          simp only [Vals.step, hx]
          rw [← hg g]
        · intro t _ _ n
          have tp : v.scriptLen = 0 → p = 0 := t x _ hp
          refine ⟨fun z => ?_, by rw [ht tp]; rfl⟩
          rcases hz n z with h | h
          · exact h
          · rw [h.1]; exact tp h.2
  | pushScript x y =>
    cases hx : vs x with
    | none => exact stepsTo_noop I (by simp only [World.step, I.none hx]) (by simp only [Vals.step, hx]) (by simp only [losses, hx])
    | some v =>
      cases v with
      | witness v e =>
        obtain ⟨p, hp, -⟩ := I.witness hx
        exact stepsTo_noop I (by simp only [World.step, hp]) (by simp only [Vals.step, hx]) (by simp only [losses, hx])
      | script v =>
        obtain ⟨p, hp, ap, -⟩ := I.script hx
        cases hy : vs y with
        | none => exact stepsTo_noop I (by simp only [World.step, hp, I.none hy]) (by simp only [Vals.step, hx, hy]) (by simp only [losses, hx, hy])
        | some u =>
          cases u with
          | witness u e =>
            obtain ⟨q, hq, -⟩ := I.witness hy
            exact stepsTo_noop I (by simp only [World.step, hp, hq]) (by simp only [Vals.step, hx, hy]) (by simp only [losses, hx, hy])
          | script u =>
            obtain ⟨q, hq, aq, -⟩ := I.script hy
            obtain ⟨v', p', r, h', E, e, a', hf, m, hg, hz⟩ := HScript.pushScript_ok w ap (ok.1 v hx) aq (ok.2 u hy)
            refine stepsTo_script I (x := x) (p := p) (by rw [hp]; rfl) (p' := p') (v' := v') (h' := h') (E := E) ?_ a' hf.sized (fun _ => hf) m ?_ ?_
            · simp only [World.step, hp, hq]
              rw [e]
              rfl
            · intro g sm
              simp only [Vals.step, hx, hy]
              rw [(hg g (sm.1.1 y u hy)).1]
            · intro t g sm _
              have tp : v.scriptLen = 0 → p = 0 := t x _ hp
              obtain ⟨t, hE, -⟩ := (hg g (sm.1.1 y u hy)).2 tp
              exact ⟨hz tp, by rw [hE]; simp only [losses, hx, hy, Finset.card_singleton]⟩
  | clearScript x =>
    cases hx : vs x with
    | none => exact stepsTo_noop I (by simp only [World.step, I.none hx]) (by simp only [Vals.step, hx]) rfl
    | some v =>
      cases v with
      | witness v e =>
        obtain ⟨p, hp, -⟩ := I.witness hx
        exact stepsTo_noop I (by simp only [World.step, hp]) (by simp only [Vals.step, hx]) rfl
      | script v =>
        obtain ⟨p, hp, ap, -⟩ := I.script hx
        have hfv := ok v hx
        obtain ⟨p', h', e, a', s, hp0, hpp⟩ := HScript.clear_ok w ap hfv.1
        have hfc : v.clear.Fits := by
          unfold Script.clear
          split
          · exact ⟨Nat.le_refl 0, by simp⟩
          · exact hfv
        refine stepsTo_script I (x := x) (p := p) (by rw [hp]; rfl) (p' := p') (v' := v.clear) (h' := h') (E := ∅) ?_ a' hfc.sized (fun _ => hfc)
          (Moves.ofStep s) ?_ ?_
        · simp only [World.step, hp]
          rw [e]
          rfl
        · intro _ _
          simp only [Vals.step, hx]
        · intro t _ _ _
          have tp : v.scriptLen = 0 → p = 0 := t x _ hp
          refine ⟨fun _ => ?_, rfl⟩
          by_cases h0 : v.scriptLen = 0
          · rw [(hpp h0).1]; exact tp h0
          · exact hp0 (by omega)
  | parseScript x bytes =>
    cases hx : vs x with
    | none => exact stepsTo_noop I (by simp only [World.step, I.none hx]) (by simp only [Vals.step, hx]) rfl
    | some v =>
      cases v with
      | witness v e =>
        obtain ⟨p, hp, -⟩ := I.witness hx
        exact stepsTo_noop I (by simp only [World.step, hp]) (by simp only [Vals.step, hx]) rfl
      | script v =>
        obtain ⟨p, hp, ap, sp⟩ := I.script hx
        obtain ⟨v', p', r, s', h', E, e, a', hs, m, ht, hg, -⟩ := HScript.fromStream_ok w ap sp ⟨bytes, false⟩ (ok v hx)
        refine stepsTo_script I (x := x) (p := p) (by rw [hp]; rfl) (p' := p') (v' := v') (h' := h') (E := E) ?_ a' hs (fun hc => absurd trivial hc) m ?_ ?_
        · simp only [World.step, hp]
          rw [e]
          rfl
        · intro g _
          simp only [Vals.step, hx]
          rw [hg g]
        · intro t g _ n
          have tp : v.scriptLen = 0 → p = 0 := t x _ hp
          obtain ⟨n1, n2⟩ := n v hx
          rw [hg g] at n2
          refine ⟨HScript.fromStream_neat n1 tp (fun c => w.ne (ap.block (by
            intro hc
            have := sp.1 (by rw [n1]; simp)
            simp [hc] at this
            omega))) _ e n2, ?_⟩
          rw [ht ⟨fun _ => tp, fun c => by rw [n1] at c; cases c⟩]
          rfl
  | newWitness x =>
    cases hx : vs x with
    | none =>
      have hW := I.none hx
      exact stepsTo_witness I (x := x) (A := ∅) (old := []) (v' := {}) (p' := 0) (e := false) (st' := false) (h' := W.heap) (by rw [hW]; rfl)
        (by simp only [World.step, hW]; rfl) (wat_nil w.null (Nat.zero_le _) (by simp)) (by simp) (Step.refl w (by simp))
        (fun _ _ => ⟨by simp only [Vals.step, hx], by simp [restale]⟩) rfl
    | some v =>
      have : ∃ o, W.objs x = some o := by
        cases v with
        | script v => exact ⟨_, (I.script hx).choose_spec.1⟩
        | witness v e => exact ⟨_, (I.witness hx).choose_spec.1⟩
      obtain ⟨o, ho⟩ := this
      exact stepsTo_noop I (by simp only [World.step, ho]) (by simp only [Vals.step, hx]) rfl
  | copyWitness x y =>
    cases hx : vs x with
    | none =>
      have hW := I.none hx
      cases hy : vs y with
      | none => exact stepsTo_noop I (by simp only [World.step, hW, I.none hy]) (by simp only [Vals.step, hx, hy]) rfl
      | some u =>
        cases u with
        | script u =>
          obtain ⟨q, hq, -⟩ := I.script hy
          exact stepsTo_noop I (by simp only [World.step, hW, hq]) (by simp only [Vals.step, hx, hy]) rfl
        | witness u eu =>
          obtain ⟨q, hq, aq, -⟩ := I.witness hy
          obtain ⟨v', p', st', h', e, a', s, hg⟩ := HWitness.copy_ok w aq
          refine stepsTo_witness I (x := x) (A := ∅) (old := []) (e := false) (by rw [hW]; rfl) ?_ a' (by simp) s ?_ rfl
          · simp only [World.step, hW, hq]
            rw [e]
            rfl
          · intro g sm
            obtain ⟨g1, g2⟩ := hg g (sm.1.2 y u eu hy)
            simp only [Vals.step, hx, hy]
            rw [← g1, g2]
            exact ⟨rfl, by simp [restale]⟩
    | some v =>
      have : ∃ o, W.objs x = some o := by
        cases v with
        | script v => exact ⟨_, (I.script hx).choose_spec.1⟩
        | witness v e => exact ⟨_, (I.witness hx).choose_spec.1⟩
      obtain ⟨o, ho⟩ := this
      exact stepsTo_noop I (by simp only [World.step, ho]) (by simp only [Vals.step, hx]) rfl
  | assignWitness x y =>
    cases hx : vs x with
    | none => exact stepsTo_noop I (by simp only [World.step, I.none hx]) (by simp only [Vals.step, hx]) rfl
    | some v =>
      cases v with
      | script v =>
        obtain ⟨p, hp, -⟩ := I.script hx
        exact stepsTo_noop I (by simp only [World.step, hp]) (by simp only [Vals.step, hx]) rfl
      | witness v ev =>
        obtain ⟨p, hp, ap, he⟩ := I.witness hx
        cases hy : vs y with
        | none => exact stepsTo_noop I (by simp only [World.step, hp, I.none hy]) (by simp only [Vals.step, hx, hy]) rfl
        | some u =>
          cases u with
          | script u =>
            obtain ⟨q, hq, -⟩ := I.script hy
            exact stepsTo_noop I (by simp only [World.step, hp, hq]) (by simp only [Vals.step, hx, hy]) rfl
          | witness u eu =>
            obtain ⟨q, hq, aq, -⟩ := I.witness hy
            by_cases hxy : x = y
            · exact stepsTo_noop I (by simp only [World.step, hp, hq, if_pos hxy]) (by simp only [Vals.step, hx, hy, if_pos hxy]) rfl
            · have hdis : ∀ z ∈ own (wptr q u.arr), z ∉ own (wptr p v.arr) := by
                intro z hz hc
                have := I.sep y x (Ne.symm hxy)
                rw [hp, hq, owned_witness, owned_witness] at this
                exact Finset.disjoint_left.1 this hz hc
              obtain ⟨v', p', st', h', e, a', s, hg⟩ := HWitness.assign_ok w ap aq hdis
              refine stepsTo_witness I (x := x) (A := own (wptr p v.arr)) (old := v.arr) (e := ev) (by rw [hp, owned_witness]) ?_ a' he s ?_ rfl
              · simp only [World.step, hp, hq, if_neg hxy]
                rw [e]
                rfl
              · intro g sm
                obtain ⟨g1, g2⟩ := hg g (sm.1.2 y u eu hy)
                simp only [Vals.step, hx, hy, if_neg hxy]
                exact ⟨by rw [← g1], g2⟩
  | pushItem x data =>
    cases hx : vs x with
    | none => exact stepsTo_noop I (by simp only [World.step, I.none hx]) (by simp only [Vals.step, hx]) rfl
    | some v =>
      cases v with
      | script v =>
        obtain ⟨p, hp, -⟩ := I.script hx
        exact stepsTo_noop I (by simp only [World.step, hp]) (by simp only [Vals.step, hx]) rfl
      | witness v ev =>
        obtain ⟨p, hp, ap, he⟩ := I.witness hx
        obtain ⟨v', p', st', r, h', e, a', s, hg⟩ := HWitness.push_ok w ap data
        refine stepsTo_witness I (x := x) (A := own (wptr p v.arr)) (old := v.arr) (e := ev) (by rw [hp, owned_witness]) ?_ a' he s ?_ rfl
        · simp only [World.step, hp]
          rw [e]
          rfl
        · intro g _
          obtain ⟨g1, g2⟩ := hg g
          simp only [Vals.step, hx, g1]
          exact ⟨trivial, g2⟩
  | pushItemScript x y =>
    cases hx : vs x with
    | none => exact stepsTo_noop I (by simp only [World.step, I.none hx]) (by simp only [Vals.step, hx]) rfl
    | some v =>
      cases v with
      | script v =>
        obtain ⟨p, hp, -⟩ := I.script hx
        exact stepsTo_noop I (by simp only [World.step, hp]) (by simp only [Vals.step, hx]) rfl
      | witness v ev =>
        obtain ⟨p, hp, ap, he⟩ := I.witness hx
        cases hy : vs y with
        | none => exact stepsTo_noop I (by simp only [World.step, hp, I.none hy]) (by simp only [Vals.step, hx, hy]) rfl
        | some u =>
          cases u with
          | witness u e =>
            obtain ⟨q, hq, -⟩ := I.witness hy
            exact stepsTo_noop I (by simp only [World.step, hp, hq]) (by simp only [Vals.step, hx, hy]) rfl
          | script u =>
            obtain ⟨q, hq, aq, -⟩ := I.script hy
            obtain ⟨v', p', st', r, h', e, a', s, hg⟩ := HWitness.pushScript_ok w ap aq (ok u hy)
            refine stepsTo_witness I (x := x) (A := own (wptr p v.arr)) (old := v.arr) (e := ev) (by rw [hp, owned_witness]) ?_ a' he s ?_ rfl
            · simp only [World.step, hp, hq]
              rw [e]
              rfl
            · intro g sm
              obtain ⟨g1, g2⟩ := hg g (sm.1.1 y u hy)
              simp only [Vals.step, hx, hy, g1]
              exact ⟨trivial, g2⟩
  | clearWitness x =>
    cases hx : vs x with
    | none => exact stepsTo_noop I (by simp only [World.step, I.none hx]) (by simp only [Vals.step, hx]) rfl
    | some v =>
      cases v with
      | script v =>
        obtain ⟨p, hp, -⟩ := I.script hx
        exact stepsTo_noop I (by simp only [World.step, hp]) (by simp only [Vals.step, hx]) rfl
      | witness v ev =>
        obtain ⟨p, hp, ap, he⟩ := I.witness hx
        obtain ⟨h', e, a', s⟩ := HWitness.clear_ok w ap
        refine stepsTo_witness I (x := x) (A := own (wptr p v.arr)) (old := v.arr) (e := ev) (v' := v.clear) (by rw [hp, owned_witness]) ?_ a' he
          (by simpa [Witness.clear] using s) ?_ rfl
        · simp only [World.step, hp]
          rw [e]
          rfl
        · intro _ _
          simp only [Vals.step, hx]
          exact ⟨trivial, by simp [restale, Witness.clear]⟩
  | parseWitness x bytes =>
    cases hx : vs x with
    | none => exact stepsTo_noop I (by simp only [World.step, I.none hx]) (by simp only [Vals.step, hx]) rfl
    | some v =>
      cases v with
      | script v =>
        obtain ⟨p, hp, -⟩ := I.script hx
        exact stepsTo_noop I (by simp only [World.step, hp]) (by simp only [Vals.step, hx]) rfl
      | witness v ev =>
        obtain ⟨p, hp, ap, he⟩ := I.witness hx
        obtain ⟨v', p', st', r, s', h', e, a', s, -, hg⟩ := HWitness.fromStream_ok w ap ⟨bytes, false⟩ (ok v ev hx)
        refine stepsTo_witness I (x := x) (A := own (wptr p v.arr)) (old := v.arr) (e := ev) (by rw [hp, owned_witness]) ?_ a' he s ?_ rfl
        · simp only [World.step, hp]
          rw [e]
          rfl
        · intro g sm
          obtain ⟨g1, g2⟩ := hg g (sm.2.2 x (v.fromStream ⟨bytes, false⟩).1 (ev || decide ((v.fromStream ⟨bytes, false⟩).1.arr ≠ []))
            (by simp only [Vals.step, hx, Vals.put, if_pos, Vals.wit]))
          simp only [Vals.step, hx, g1]
          exact ⟨trivial, g2⟩
  | destroy x =>
    cases hx : vs x with
    | none =>
      refine stepsTo_noop I (by simp only [World.step, I.none hx]) ?_ rfl
      funext y
      simp only [Vals.step, Vals.put]
      split
      · rename_i h; rw [h, hx]
      · rfl
    | some v =>
      cases v with
      | script v =>
        obtain ⟨p, hp, ap, -⟩ := I.script hx
        obtain ⟨h', e, s⟩ := HScript.destroy_ok w ap
        obtain ⟨I', d⟩ := I.put (x := x) (h' := h') (o := none) (v := none) (E := ∅) (by rw [hp, owned_script]; simpa [Obj.owned] using s) (by simp) trivial
        refine ⟨_, _, ∅, ?_, I', d, s.denies, fun _ _ => rfl, fun f _ => f.put fun s e => (by cases e), fun t _ _ _ => ⟨t.put fun s e => (by cases e), rfl⟩⟩
        simp only [World.step, hp]
        rw [e]
        rfl
      | witness v ev =>
        obtain ⟨p, hp, ap, he⟩ := I.witness hx
        obtain ⟨h', e, s⟩ := HWitness.destroy_ok w ap (by
          intro hc
          refine ok v ev hx ⟨hc.1, ?_⟩
          simpa [hc.1] using hc.2)
        obtain ⟨I', d⟩ := I.put (x := x) (h' := h') (o := none) (v := none) (E := ∅) (by rw [hp, owned_witness]; simpa [Obj.owned] using s) (by simp) trivial
        refine ⟨_, _, ∅, ?_, I', d, s.denies, fun _ _ => rfl, fun f _ => f.put fun s e => (by cases e), fun t _ _ _ => ⟨t.put fun s e => (by cases e), rfl⟩⟩
        simp only [World.step, hp]
        rw [e]
        rfl

end UB
