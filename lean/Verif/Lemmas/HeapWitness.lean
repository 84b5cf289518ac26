import Verif.Lemmas.HeapParse

/-! `Witness` objects on the heap against the values of Model/Script.lean. -/

namespace UB
open Heap Spec

namespace Heap

/-- Address `p` of a witness with the bytes `b`: with bytes it is a block with these contents; without, it is NULL or (`stale`) an
address that has been given back. -/
def WAt (h : Heap) (p : Nat) (b : Bytes) (stale : Bool) : Prop :=
  if b = [] then h.blocks p = none ∧ p ≤ h.next ∧ (stale = true ↔ p ≠ 0) else h.blocks p = some b

/-- The address owned by a witness. -/
def wptr (p : Nat) (b : Bytes) : Nat := if b = [] then 0 else p

@[simp] theorem wptr_nil (p : Nat) : wptr p [] = 0 := rfl

theorem wptr_ne {p : Nat} {b : Bytes} (h : b ≠ []) : wptr p b = p := if_neg h

/-- Whether a witness which held `old` and now holds `new` points to memory that is not its own. -/
def restale (old new : Bytes) (stale : Bool) : Bool := decide (new = []) && (stale || decide (old ≠ []))

theorem WAt.at {h : Heap} {p : Nat} {b : Bytes} {st : Bool} (a : WAt h p b st) : At h (wptr p b) b := by
  unfold WAt at a
  split at a
  · rename_i e
    subst e
    exact Or.inl ⟨rfl, rfl⟩
  · rename_i e
    rw [wptr_ne e]
    exact Or.inr a

theorem WAt.block {h : Heap} {p : Nat} {b : Bytes} {st : Bool} (a : WAt h p b st) (hb : b ≠ []) : h.blocks p = some b := by
  unfold WAt at a
  rwa [if_neg hb] at a

theorem WAt.gone {h : Heap} {p : Nat} {st : Bool} (a : WAt h p [] st) : h.blocks p = none ∧ p ≤ h.next ∧ (st = true ↔ p ≠ 0) := by
  unfold WAt at a
  rwa [if_pos rfl] at a

theorem wat_some {h : Heap} {p : Nat} {b : Bytes} (st : Bool) (hb : b ≠ []) (e : h.blocks p = some b) : WAt h p b st := by
  unfold WAt
  rwa [if_neg hb]

theorem wat_nil {h : Heap} {p : Nat} {st : Bool} (h1 : h.blocks p = none) (h2 : p ≤ h.next) (h3 : st = true ↔ p ≠ 0) : WAt h p [] st := by
  unfold WAt
  rw [if_pos rfl]
  exact ⟨h1, h2, h3⟩

/-- Steps of code which owns other blocks only. -/
theorem WAt.keep {h h' : Heap} {A B : Finset Nat} (s : Step h h' A B) (w : h.Wf) (hA : ∀ q ∈ A, h.blocks q ≠ none) {p : Nat} {b : Bytes} {st : Bool}
    (a : WAt h p b st) (hp : ∀ q ∈ own (wptr p b), q ∉ A) : WAt h' p b st := by
  by_cases hb : b = []
  · subst hb
    obtain ⟨h1, h2, h3⟩ := a.gone
    refine wat_nil ?_ (le_trans h2 s.le) h3
    rw [s.other p (fun hc => hA p hc h1) h2, h1]
  · refine wat_some _ hb (s.keep w ?_ (a.block hb))
    refine hp p ?_
    rw [wptr_ne hb]
    exact mem_own.2 ⟨rfl, w.ne (a.block hb)⟩

end Heap

theorem writeAt_middle (a c d bs : Bytes) (h : c.length = bs.length) : writeAt (a ++ c ++ d) a.length bs = some (a ++ bs ++ d) := by
  unfold writeAt
  split
  · rename_i e
    rw [e] at h
    rw [e, List.length_eq_zero_iff.1 h]
  · rw [if_pos (by simp only [List.length_append]; omega)]
    rw [List.append_assoc a c d, List.take_left', ← h, List.drop_append, List.drop_eq_nil_of_le (by omega), Nat.add_sub_cancel_left,
      List.drop_left']
    simp
    all_goals rfl

/-- A witness value as an object with its bytes at address `p`. -/
def HWitness.of (v : Witness) (p : Nat) : HWitness :=
  ⟨v.status, v.bytesParsed, v.lenLen, v.numElements, v.curElement, v.curElementLen, v.curBytesParsed, v.curLen, v.arr.length, p⟩

namespace HWitness

theorem clear_ok {h : Heap} (w : h.Wf) {v : Witness} {p : Nat} {st : Bool} (a : WAt h p v.arr st) :
    ∃ h', (of v p).clear h = .ok (of v.clear p, h') ∧ WAt h' p [] (st || decide (v.arr ≠ [])) ∧ Step h h' (own (wptr p v.arr)) ∅ := by
  by_cases hb : v.arr = []
  · have e0 : (of v p).witnessLen = 0 := by simp [of, hb]
    refine ⟨h, ?_, ?_, ?_⟩
    · unfold clear
      rw [if_neg (by omega)]
      unfold Witness.clear of
      simp [hb]
    · rw [hb] at a
      simpa [hb] using a
    · rw [hb]
      exact Step.refl w (by simp)
  · have e0 : 0 < (of v p).witnessLen := by simp [of, List.length_pos_iff, hb]
    have hbl := a.block hb
    refine ⟨h.set p none, ?_, ?_, ?_⟩
    · unfold clear
      rw [if_pos e0]
      show (do let h ← h.free p; _) = _
      rw [free_live hbl (w.ne hbl), C.bind_ok]
      rfl
    · exact wat_nil (set_same _ _ _) (w.le hbl) (by simp [hb, w.ne hbl])
    · rw [wptr_ne hb]
      exact Step.set_none w hbl

/-- The destructor of a witness which has bytes, or never had. -/
theorem destroy_ok {h : Heap} (w : h.Wf) {v : Witness} {p : Nat} {st : Bool} (a : WAt h p v.arr st) (hs : ¬ (v.arr = [] ∧ st = true)) :
    ∃ h', (of v p).destroy h = .ok h' ∧ Step h h' (own (wptr p v.arr)) ∅ := by
  by_cases hb : v.arr = []
  · rw [hb] at a
    have hp : p = 0 := by
      by_contra hc
      exact hs ⟨hb, a.gone.2.2.2 hc⟩
    refine ⟨h, ?_, ?_⟩
    · unfold destroy
      rw [if_neg (show ¬ (of v p).ptr ≠ 0 from fun c => c hp)]
      rfl
    · rw [hb]
      exact Step.refl w (by simp)
  · have hbl := a.block hb
    refine ⟨h.set p none, ?_, ?_⟩
    · unfold destroy
      rw [if_pos (show (of v p).ptr ≠ 0 from w.ne hbl)]
      exact free_live hbl (w.ne hbl)
    · rw [wptr_ne hb]
      exact Step.set_none w hbl

/-- The destructor of a witness whose bytes have been given back before. -/
theorem destroy_ub {h : Heap} {v : Witness} {p : Nat} {st : Bool} (a : WAt h p v.arr st) (hs : v.arr = [] ∧ st = true) :
    (of v p).destroy h = .ub := by
  obtain ⟨hb, hst⟩ := hs
  rw [hb] at a
  obtain ⟨h1, -, h3⟩ := a.gone
  unfold destroy
  rw [if_pos (show (of v p).ptr ≠ 0 from h3.1 hst)]
  exact free_dead h1 (h3.1 hst)

theorem grow_ne {a b d : Bytes} (h : b ≠ []) : a ++ b ++ d ≠ [] := by simp [h]

theorem compactSize_ne (n : Nat) : compactSize n ≠ [] := by
  intro e
  have := congrArg List.length e
  rcases compactSize_length n with h | h | h | h <;> simp [h] at this

/-- A new block for `pre` and `rest` filled in two writes. -/
theorem fill_two {h : Heap} (w : h.Wf) {p : Nat} {old pre rest : Bytes} (hb : h.blocks p = some (old ++ zeros (pre.length + rest.length))) :
    ∃ h1 h2, h.write p old.length pre = .ok h1 ∧ h1.write p (old.length + pre.length) rest = .ok h2 ∧
      h2.blocks p = some (old ++ pre ++ rest) ∧ Step h h2 (own p) (own p) := by
  have e1 : writeAt (old ++ zeros (pre.length + rest.length)) old.length pre = some (old ++ pre ++ zeros rest.length) := by
    have : old ++ zeros (pre.length + rest.length) = old ++ zeros pre.length ++ zeros rest.length := by
      rw [List.append_assoc]
      unfold zeros
      rw [List.replicate_append_replicate]
    rw [this]
    exact writeAt_middle _ _ _ _ (by simp)
  obtain ⟨h1, w1, b1, -, s1⟩ := write_ok w hb e1
  have e2 : writeAt (old ++ pre ++ zeros rest.length) (old.length + pre.length) rest = some (old ++ pre ++ rest) := by
    have := writeAt_end (old ++ pre) rest (zeros rest.length) (by simp)
    rwa [List.length_append] at this
  obtain ⟨h2, w2, b2, -, s2⟩ := write_ok s1.wf b1 e2
  exact ⟨h1, h2, w1, w2, b2, s1.trans s2⟩

/-- Script.cpp:651-669. -/
theorem push_ok {h : Heap} (w : h.Wf) {v : Witness} {p : Nat} {st : Bool} (a : WAt h p v.arr st) (data : Bytes) :
    ∃ v' p' st' r h', (of v p).push data h = .ok (of v' p', r, h') ∧ WAt h' p' v'.arr st' ∧
      Step h h' (own (wptr p v.arr)) (own (wptr p' v'.arr)) ∧
      (h.Generous → v.push data = .ok (v', r) ∧ st' = restale v.arr v'.arr st) := by
  by_cases hm : v.arr.length + data.length + lenVarIntN data.length > Script.maxScriptSize
  · obtain ⟨h', e, a', s⟩ := clear_ok w a
    refine ⟨v.clear, p, _, 0, h', ?_, a', by simpa [Witness.clear] using s, fun _ => ⟨?_, ?_⟩⟩
    · unfold push
      dsimp only
      rw [if_pos (show (of v p).witnessLen + data.length + lenVarIntN data.length > _ from hm), e, C.bind_ok]
      rfl
    · unfold Witness.push
      rw [if_pos hm]
    · simp [restale, Witness.clear]
  · have hm' := hm
    simp only [Script.maxScriptSize] at hm'
    have hd : data.length < 2 ^ 64 := by omega
    have hl := lenVarIntN_eq data.length hd
    have evi : writeVarInt (UInt64.ofNat data.length) (zeros (lenVarIntN data.length)) = .ok ((compactSize data.length).length, compactSize data.length) := by
      have := writeVarInt_zeros data.length (lenVarIntN data.length) hd (by omega)
      rw [this, hl, Nat.sub_self]
      show _ = C.ok (_, compactSize data.length)
      rw [show zeros 0 = [] from rfl, List.append_nil]
    let v1 : Witness := { v with arr := v.arr ++ compactSize data.length ++ data, numElements := (v.numElements + 1) % 2 ^ 32 }
    have hlen1 : v1.arr.length = v.arr.length + (data.length + lenVarIntN data.length) := by
      simp only [v1, List.length_append, hl]
      omega
    have hne1 : v1.arr ≠ [] := grow_ne (compactSize_ne _)
    have ev : v.push data = .ok (v1, v1.arr.length) := by
      unfold Witness.push
      dsimp only
      rw [if_neg hm, evi, C.bind_ok]
      rfl
    have eh : (of v p).push data h = if v.arr.length = 0 then (do
          let (p', h) := h.calloc (data.length + lenVarIntN data.length)
          if p' = 0 then return (of { v with arr := [] } p', 0, h)
          else
            let h ← h.write p' v.arr.length (compactSize data.length)
            let h ← h.write p' (v.arr.length + lenVarIntN data.length) data
            return ({ of v p' with witnessLen := v.arr.length + (data.length + lenVarIntN data.length), numElements := (v.numElements + 1) % 2 ^ 32 },
              v.arr.length + (data.length + lenVarIntN data.length), h)) else (do
          let (p', h) ← h.realloc p (v.arr.length + data.length + lenVarIntN data.length)
          if p' = 0 then
            let h ← h.free p
            return (of { v with arr := [] } p, 0, h)
          else
            let h ← h.write p' v.arr.length (compactSize data.length)
            let h ← h.write p' (v.arr.length + lenVarIntN data.length) data
            return ({ of v p' with witnessLen := v.arr.length + (data.length + lenVarIntN data.length), numElements := (v.numElements + 1) % 2 ^ 32 },
              v.arr.length + (data.length + lenVarIntN data.length), h)) := by
      unfold push
      dsimp only
      rw [if_neg (show ¬ (of v p).witnessLen + data.length + lenVarIntN data.length > _ from hm), evi, C.bind_ok]
      rfl
    have hres : ∀ p', ({ of v p' with witnessLen := v.arr.length + (data.length + lenVarIntN data.length), numElements := (v.numElements + 1) % 2 ^ 32 } : HWitness) = of v1 p' := by
      intro p'
      unfold of
      rw [hlen1]
    rw [eh]
    have h0 : 0 < data.length + lenVarIntN data.length := by
      rw [hl]
      have := List.length_pos_iff.2 (compactSize_ne data.length)
      omega
    by_cases hb : v.arr = []
    · rw [if_pos (by simp [hb])]
      cases hden : h.denies h.next (data.length + lenVarIntN data.length) with
      | true =>
        obtain ⟨e, s⟩ := calloc_denied w hden
        refine ⟨{ v with arr := [] }, 0, false, 0, (h.calloc (data.length + lenVarIntN data.length)).2, ?_, ?_, ?_, fun g => ?_⟩
        · dsimp only
          rw [if_pos e, e]
          rfl
        · exact wat_nil s.wf.null (Nat.zero_le _) (by simp)
        · simpa [hb] using s
        · exact absurd ((g _ _ h0).1 hden) (by omega)
      | false =>
        obtain ⟨e, hbl, s⟩ := calloc_granted w hden
        rw [show zeros (data.length + lenVarIntN data.length) = v.arr ++ zeros ((compactSize data.length).length + data.length) from by
          rw [hb, hl, Nat.add_comm]; rfl] at hbl
        obtain ⟨h1, h2, w1, w2, b2, s2⟩ := fill_two s.wf hbl
        rw [← hl] at w2
        refine ⟨v1, (h.calloc (data.length + lenVarIntN data.length)).1, false, v1.arr.length, h2, ?_, wat_some _ hne1 b2, ?_, fun _ => ⟨ev, ?_⟩⟩
        · dsimp only
          rw [if_neg e, w1, C.bind_ok, w2, C.bind_ok, hres, hlen1]
          rfl
        · rw [wptr_ne hne1, hb, wptr_nil, own_zero]
          exact s.trans s2
        · unfold restale
          rw [decide_eq_false hne1]
          rfl
    · rw [if_neg (by simpa using hb)]
      have hbl := a.block hb
      have hpos := List.length_pos_iff.2 hb
      rw [wptr_ne hb]
      cases hden : h.denies h.next (v.arr.length + data.length + lenVarIntN data.length) with
      | true =>
        obtain ⟨h1, er, hb1, s1⟩ := realloc_denied w hbl hden
        obtain ⟨h2, ef, s2⟩ := free_ok s1.wf (Or.inr ⟨_, hb1⟩)
        refine ⟨{ v with arr := [] }, p, true, 0, h2, ?_, ?_, ?_, fun g => ?_⟩
        · rw [er, C.bind_ok]
          dsimp only
          rw [if_pos rfl, ef, C.bind_ok]
          rfl
        · refine wat_nil ?_ (le_trans (s1.wf.le hb1) s2.le) (by simp [w.ne hbl])
          exact s2.dead p (Or.inl (mem_own.2 ⟨rfl, w.ne hbl⟩)) (by simp)
        · simpa using s1.trans s2
        · exact absurd ((g _ _ (by omega)).1 hden) (by omega)
      | false =>
        obtain ⟨p', h1, er, hp', hb1, s1⟩ := realloc_granted w hbl hden
        rw [show v.arr.take (v.arr.length + data.length + lenVarIntN data.length) ++ zeros (v.arr.length + data.length + lenVarIntN data.length - v.arr.length) =
            v.arr ++ zeros ((compactSize data.length).length + data.length) from by
          rw [List.take_of_length_le (by omega), hl]
          congr 2
          omega] at hb1
        obtain ⟨h2, h3, w1, w2, b2, s2⟩ := fill_two s1.wf hb1
        rw [← hl] at w2
        refine ⟨v1, p', false, v1.arr.length, h3, ?_, wat_some _ hne1 b2, ?_, fun _ => ⟨ev, ?_⟩⟩
        · rw [er, C.bind_ok]
          dsimp only
          rw [if_neg hp', w1, C.bind_ok, w2, C.bind_ok, hres, hlen1]
          rfl
        · rw [wptr_ne hne1]
          exact s1.trans s2
        · unfold restale
          rw [decide_eq_false hne1]
          rfl

/-- Script.cpp:697-702, 707-713, on an object without bytes. -/
theorem take_ok {h : Heap} (w : h.Wf) {v vo : Witness} {p po : Nat} {st sto : Bool} (hv : v.arr = []) (a : WAt h p [] st) (ao : WAt h po vo.arr sto) :
    ∃ v' p' st' h', (of v p).take (of vo po) h = .ok (of v' p', h') ∧ WAt h' p' v'.arr st' ∧ Step h h' ∅ (own (wptr p' v'.arr)) ∧
      (h.Generous → vo.arr.length < 2 ^ 63 → v' = v.assign vo ∧ st' = (decide (vo.arr = []) && st)) := by
  by_cases hb : vo.arr = []
  · refine ⟨v.assign vo, p, st, h, ?_, by simpa [Witness.assign, hb] using a, ?_, fun _ _ => ⟨rfl, by simp [hb]⟩⟩
    · unfold take
      rw [if_neg (by simp [of, hb])]
      simp [Witness.assign, of, hb, hv]
    · simp only [Witness.assign, hb, wptr_nil, own_zero]
      exact Step.refl w (by simp)
  · have hbl := ao.block hb
    have hpos := List.length_pos_iff.2 hb
    have et : (of v p).take (of vo po) h = (do
        let (p', h) := h.calloc vo.arr.length
        if p' = 0 then return (of { v with numElements := vo.numElements, arr := [] } p', h)
        else
          let bs ← h.read po 0 vo.arr.length
          let h ← h.write p' 0 bs
          return (of (v.assign vo) p', h)) := by
      unfold take
      rw [if_pos (show (of vo po).witnessLen > 0 from hpos)]
      rfl
    rw [et]
    rcases HScript.calloc_fill w vo.arr with ⟨hp, s, hd⟩ | ⟨hp, hd, h', ew, hb', s⟩
    · refine ⟨{ v with numElements := vo.numElements, arr := [] }, 0, false, (h.calloc vo.arr.length).2, ?_, ?_, by simpa using s, fun g hl => ?_⟩
      · dsimp only
        rw [if_pos hp, hp]
        rfl
      · exact wat_nil s.wf.null (Nat.zero_le _) (by simp)
      · exact absurd ((g _ _ hpos).1 hd) (by omega)
    · have hk : (h.calloc vo.arr.length).2.blocks po = some vo.arr := by
        obtain ⟨-, -, s0⟩ := calloc_granted w hd
        exact s0.keep w (by simp) hbl
      refine ⟨v.assign vo, (h.calloc vo.arr.length).1, false, h', ?_, wat_some _ hb hb', ?_, fun _ _ => ⟨rfl, by simp [hb]⟩⟩
      · dsimp only
        rw [if_neg hp, read_all hk (Nat.le_refl _), C.bind_ok, List.take_length, ew, C.bind_ok]
        rfl
      · rw [show wptr (h.calloc vo.arr.length).1 (v.assign vo).arr = _ from wptr_ne hb]
        exact s

/-- Script.cpp:694-703. -/
theorem copy_ok {h : Heap} (w : h.Wf) {vo : Witness} {po : Nat} {sto : Bool} (ao : WAt h po vo.arr sto) :
    ∃ v' p' st' h', (of vo po).copy h = .ok (of v' p', h') ∧ WAt h' p' v'.arr st' ∧ Step h h' ∅ (own (wptr p' v'.arr)) ∧
      (h.Generous → vo.arr.length < 2 ^ 63 → v' = vo.copy ∧ st' = false) := by
  obtain ⟨v', p', st', h', e, a', s, hg⟩ := take_ok w (v := {}) (p := 0) (st := false) rfl (wat_nil w.null (Nat.zero_le _) (by simp)) ao
  refine ⟨v', p', st', h', e, a', s, fun g hl => ?_⟩
  obtain ⟨h1, h2⟩ := hg g hl
  exact ⟨h1, by simpa using h2⟩

/-- Script.cpp:704-715. -/
theorem assign_ok {h : Heap} (w : h.Wf) {v vo : Witness} {p po : Nat} {st sto : Bool} (a : WAt h p v.arr st) (ao : WAt h po vo.arr sto)
    (hd : ∀ q ∈ own (wptr po vo.arr), q ∉ own (wptr p v.arr)) :
    ∃ v' p' st' h', (of v p).assign (of vo po) h = .ok (of v' p', h') ∧ WAt h' p' v'.arr st' ∧
      Step h h' (own (wptr p v.arr)) (own (wptr p' v'.arr)) ∧
      (h.Generous → vo.arr.length < 2 ^ 63 → v' = v.assign vo ∧ st' = restale v.arr v'.arr st) := by
  obtain ⟨h1, e1, a1, s1⟩ := clear_ok w a
  have ao1 := ao.keep s1 w a.at.owned hd
  obtain ⟨v', p', st', h', e, a', s, hg⟩ := take_ok s1.wf (v := v.clear) (p := p) rfl a1 ao1
  refine ⟨v', p', st', h', ?_, a', s1.trans s, fun g hl => ?_⟩
  · unfold assign
    rw [e1, C.bind_ok]
    exact e
  · obtain ⟨h1, h2⟩ := hg (s1.generous g) hl
    refine ⟨h1, ?_⟩
    rw [h2, h1]
    rfl

/-- Script.cpp:683-693. -/
theorem pushScript_ok {h : Heap} (w : h.Wf) {v : Witness} {vo : Script} {p po : Nat} {st : Bool} (a : WAt h p v.arr st) (ao : At h po vo.arr)
    (ho : vo.Fits) :
    ∃ v' p' st' r h', (of v p).pushScript (HScript.of vo po) h = .ok (of v' p', r, h') ∧ WAt h' p' v'.arr st' ∧
      Step h h' (own (wptr p v.arr)) (own (wptr p' v'.arr)) ∧
      (h.Generous → vo.scriptLen < 2 ^ 62 → v.pushScript vo = .ok (v', r) ∧ st' = restale v.arr v'.arr st) := by
  obtain ⟨va, pa, h1, ec, aa, hfa, s1, hg, hcase⟩ := HScript.temp_ok w ao ho
  have e0 : (of v p).pushScript (HScript.of vo po) h = (do
      let (tmp, h) := h1.calloc (va.scriptLen + lenVarIntN va.scriptLen)
      if tmp = 0 then
        let h ← (HScript.of va pa).destroy h
        return (of v p, 0, h)
      else
        let (l, bs) ← (HScript.of va pa).ser h
        let h ← h.write tmp 0 bs
        let bs ← h.read tmp 0 (va.scriptLen + lenVarIntN va.scriptLen)
        let dl ← readVarInt bs
        if l < dl.toNat then .ub
        else
          let data ← h.read tmp (l - dl.toNat) dl.toNat
          let (w, _, h) ← (of v p).push data h
          let h ← h.free tmp
          let h ← (HScript.of va pa).destroy h
          return (w, w.witnessLen, h)) := by
    unfold pushScript
    rw [ec, C.bind_ok]
    rfl
  rw [e0]
  have a1 := a.keep s1 w (by simp) (by simp)
  rcases hcase with ⟨hp, s2, hng⟩ | ⟨hp, eser, h3, ew, hb3, er, s3⟩
  · obtain ⟨h', ed, s4⟩ := HScript.destroy_ok s2.wf (aa.keep s2 s1.wf (by simp))
    refine ⟨v, p, st, 0, h', ?_, ?_, ?_, fun g hl => absurd ⟨g, hl⟩ hng⟩
    · dsimp only
      rw [if_pos hp, ed, C.bind_ok]
      rfl
    · have a2 := a1.keep s2 s1.wf (by simp) (by simp)
      refine a2.keep s4 s2.wf (aa.keep s2 s1.wf (by simp)).owned ?_
      intro q hq hc
      exact fresh_disjoint w s1 a.at q hc hq
    · have m : Moves h1 (h1.calloc (va.scriptLen + lenVarIntN va.scriptLen)).2 (wptr p v.arr) (wptr p v.arr) ∅ := by
        refine .ofStep ?_
        have := s2.frame s1.wf (own (wptr p v.arr)) (by simp) a1.at.owned
        simpa using this
      simpa using (Moves.around w s1 a.at m s4).1
  · have a3 := a1.keep s3 s1.wf (by simp) (by simp)
    obtain ⟨v', p', st', r, h4, ep, a4, s4, g4⟩ := push_ok s3.wf a3 va.bytes
    have m4 : Moves h3 h4 (wptr p v.arr) (wptr p' v'.arr) ∅ := .ofStep s4
    -- the temporary
    have hdt : ∀ q ∈ own (h1.calloc (va.scriptLen + lenVarIntN va.scriptLen)).1, q ∉ own (wptr p v.arr) := fresh_disjoint s1.wf s3 a1.at
    have hb4 : h4.blocks (h1.calloc (va.scriptLen + lenVarIntN va.scriptLen)).1 = some (varBytes va.bytes) :=
      s4.keep s3.wf (hdt _ (mem_own.2 ⟨rfl, hp⟩)) hb3
    obtain ⟨h5, ef, s5⟩ := free_ok s4.wf (Or.inr ⟨_, hb4⟩)
    have m5 : Moves h1 h5 (wptr p v.arr) (wptr p' v'.arr) ∅ := Moves.around s1.wf s3 a1.at m4 s5
    have ht5 : ∀ q ∈ own (wptr p' v'.arr), q ∉ own (h1.calloc (va.scriptLen + lenVarIntN va.scriptLen)).1 := by
      intro q hq hc
      exact s4.notIn s3.wf (hdt q hc) (by rw [(mem_own.1 hc).1]; exact hb3) hq
    have a5 := a4.keep s5 s4.wf (by intro q hq; rw [(mem_own.1 hq).1, hb4]; simp) ht5
    -- the copy of the argument
    have hda : ∀ q ∈ own pa, q ∉ own (wptr p v.arr) := fresh_disjoint w s1 a.at
    have aa5 := aa.keep m5.1 s1.wf hda
    obtain ⟨h', ed, s6⟩ := HScript.destroy_ok s5.wf aa5
    have m6 := Moves.around w s1 a.at m5 s6
    have hta : ∀ q ∈ own (wptr p' v'.arr), q ∉ own pa := by
      intro q hq hc
      cases hb : h1.blocks q with
      | none => exact s1.live q hc hb
      | some b => exact m5.1.notIn s1.wf (hda q hc) hb (Finset.mem_union_left _ hq)
    have hbl : va.bytes.length < 2 ^ 64 := by rw [hfa.bytes_length]; exact hfa.2
    have hrv : readVarInt (varBytes va.bytes) = .ok (UInt64.ofNat va.bytes.length) := by
      have := readVarInt_compactSize (UInt64.ofNat va.bytes.length) va.bytes
      rwa [UInt64.toNat_ofNat_of_lt' hbl] at this
    have hto : (UInt64.ofNat va.bytes.length).toNat = va.bytes.length := UInt64.toNat_ofNat_of_lt' hbl
    have hvl : (varBytes va.bytes).length = (compactSize va.bytes.length).length + va.bytes.length := by simp [varBytes]
    have hld : load (varBytes va.bytes) ((varBytes va.bytes).length - va.bytes.length) va.bytes.length = .ok va.bytes := by
      unfold load
      rw [if_pos (by omega), hvl, Nat.add_sub_cancel]
      simp [varBytes]
    have hrd : h3.read (h1.calloc (va.scriptLen + lenVarIntN va.scriptLen)).1 ((varBytes va.bytes).length - va.bytes.length) va.bytes.length = .ok va.bytes := by
      unfold Heap.read
      split
      · rename_i e
        rw [List.length_eq_zero_iff.1 e]
      · rw [hb3]
        dsimp only
        rw [if_pos (by omega), hvl, Nat.add_sub_cancel]
        simp [varBytes]
    refine ⟨v', p', st', v'.arr.length, h', ?_, ?_, by simpa using m6.1, ?_⟩
    · dsimp only
      rw [if_neg hp, eser, C.bind_ok]
      dsimp only
      rw [ew, C.bind_ok, er, C.bind_ok, hrv, C.bind_ok, hto, if_neg (by omega), hrd, C.bind_ok, ep, C.bind_ok]
      dsimp only
      rw [ef, C.bind_ok, ed, C.bind_ok]
      rfl
    · exact a5.keep s6 s5.wf aa5.owned hta
    · intro g hl
      obtain ⟨hvb, -⟩ := hg g hl
      obtain ⟨gv, gs⟩ := g4 (s3.generous (s1.generous g))
      refine ⟨?_, gs⟩
      unfold Witness.pushScript
      rw [ho.serialize, C.bind_ok]
      dsimp only
      rw [← hvb, hrv, C.bind_ok, hto, if_neg (by omega), hld, C.bind_ok, gv, C.bind_ok]
      rfl

theorem elemLen_eq (v : Witness) (p : Nat) (s : PStream) :
    (of v p).elemLen s = match v.elemLen s with
      | none => .ub
      | some (v', cr, s') => .ok (of v' p, cr, s') := by
  unfold elemLen Witness.elemLen
  by_cases h0 : s.avail ∧ v.curBytesParsed = 0
  · rw [if_pos h0, if_pos (show s.avail ∧ (of v p).curBytesParsed = 0 from h0)]
    by_cases hb : s.readByte.1 < 0xfd
    · dsimp only [of]
      rw [if_pos hb, if_pos hb]
      dsimp only
      split <;> rename_i e <;> rw [e]
    · dsimp only [of]
      rw [if_neg hb, if_neg hb]
      dsimp only
      split <;> rename_i e <;> rw [e]
  · rw [if_neg h0, if_neg (show ¬ (s.avail ∧ (of v p).curBytesParsed = 0) from h0)]
    dsimp only [of]
    split <;> rename_i e <;> rw [e]

theorem elemLen_arr {v v' : Witness} {s s' : PStream} {cr : Nat} (h : v.elemLen s = some (v', cr, s')) :
    v'.arr = v.arr ∧ v'.status = v.status := by
  unfold Witness.elemLen at h
  split at h
  split at h
  · cases h
  · rename_i w1 cr1 s1 hw1 _ _ _ _ _
    injection h with h
    injection h with h1 h2
    rw [← h1]
    show w1.arr = v.arr ∧ w1.status = v.status
    split at hw1
    · dsimp only at hw1
      split at hw1
      · injection hw1 with e; rw [← e]; exact ⟨rfl, rfl⟩
      · injection hw1 with e; rw [← e]; exact ⟨rfl, rfl⟩
    · injection hw1 with e; rw [← e]; exact ⟨rfl, rfl⟩

theorem lenVarIntN_pos (n : Nat) : 0 < lenVarIntN n := by
  unfold lenVarIntN lenVarInt
  split_ifs <;> simp

theorem writeAt_len {b b' bs : Bytes} {off : Nat} (h : writeAt b off bs = some b') : b'.length = b.length := by
  unfold writeAt at h
  split at h
  · injection h with h; rw [h]
  · split at h
    · injection h with h
      rw [← h]
      simp only [List.length_append, List.length_take, List.length_drop]
      omega
    · cases h

theorem elemAlloc_len {v v' : Witness} {cr off : Nat} (h : v.elemAlloc cr off = some v') :
    v.arr.length ≤ v'.arr.length ∧ v'.status = v.status := by
  unfold Witness.elemAlloc at h
  split at h
  · dsimp only at h
    split at h
    · cases h
    · split at h
      · rename_i e
        split at h
        · cases h
        · injection h with h
          rw [e, ← h]
          simp
      · split at h
        · cases h
        · rename_i arr e
          injection h with h
          have := writeAt_len e
          rw [← h]
          simp only [List.length_append] at this
          show v.arr.length ≤ arr.length ∧ _
          exact ⟨by omega, rfl⟩
  · injection h with h
    rw [h]
    exact ⟨Nat.le_refl _, rfl⟩

/-- Script.cpp:597-610. -/
theorem elemAlloc_ok {h : Heap} (w : h.Wf) {v v1 : Witness} {p : Nat} {st : Bool} (a : WAt h p v.arr st) (cr off : Nat)
    (hv : v.elemAlloc cr off = some v1) :
    (∃ p' h', (of v p).elemAlloc cr off h = .ok (true, of v1 p', h') ∧ WAt h' p' v1.arr (restale v.arr v1.arr st) ∧
      Step h h' (own (wptr p v.arr)) (own (wptr p' v1.arr))) ∨
    (∃ p' st' h', (of v p).elemAlloc cr off h = .ok (false, of { v with arr := [], status := .failed } p', h') ∧ WAt h' p' [] st' ∧
      Step h h' (own (wptr p v.arr)) ∅ ∧ ¬ (h.Generous ∧ v1.arr.length < 2 ^ 63)) := by
  unfold Witness.elemAlloc at hv
  unfold elemAlloc
  by_cases hc : v.curBytesParsed + cr = v.curLen ∧ cr > 0
  · rw [if_pos hc] at hv
    rw [if_pos (show (of v p).curBytesParsed + cr = (of v p).curLen ∧ cr > 0 from hc)]
    have hl := lenVarIntN_pos v.curElementLen
    dsimp only at hv
    cases hvi : writeVarInt (UInt64.ofNat v.curElementLen) (zeros (lenVarIntN v.curElementLen)) with
    | ub => rw [hvi] at hv; cases hv
    | ok x =>
      obtain ⟨n, vi⟩ := x
      rw [hvi] at hv
      dsimp only at hv
      have eh : (do
          let l := lenVarIntN (of v p).curElementLen
          let (_, vi) ← writeVarInt (UInt64.ofNat (of v p).curElementLen) (zeros l)
          if (of v p).witnessLen = 0 then
            let (p', h) := h.calloc ((of v p).curElementLen + l)
            if p' = 0 then return (false, { (of v p) with ptr := p', witnessLen := 0, status := .failed }, h)
            else
              let h ← h.write p' 0 vi
              return (true, { (of v p) with ptr := p', witnessLen := (of v p).curElementLen + l }, h)
          else
            let (p', h) ← h.realloc (of v p).ptr ((of v p).witnessLen + (of v p).curElementLen + l)
            if p' = 0 then
              let h ← h.free (of v p).ptr
              return (false, { (of v p) with witnessLen := 0, status := .failed }, h)
            else
              let h ← h.write p' off vi
              return (true, { (of v p) with ptr := p', witnessLen := (of v p).witnessLen + ((of v p).curElementLen + l) }, h) : C (Bool × HWitness × Heap)) =
          if v.arr.length = 0 then (do
            let (p', h) := h.calloc (v.curElementLen + lenVarIntN v.curElementLen)
            if p' = 0 then return (false, of { v with arr := [], status := .failed } p', h)
            else
              let h ← h.write p' 0 vi
              return (true, { of v p' with witnessLen := v.curElementLen + lenVarIntN v.curElementLen }, h))
          else (do
            let (p', h) ← h.realloc p (v.arr.length + v.curElementLen + lenVarIntN v.curElementLen)
            if p' = 0 then
              let h ← h.free p
              return (false, of { v with arr := [], status := .failed } p, h)
            else
              let h ← h.write p' off vi
              return (true, { of v p' with witnessLen := v.arr.length + (v.curElementLen + lenVarIntN v.curElementLen) }, h)) := by
        dsimp only
        rw [show (of v p).curElementLen = v.curElementLen from rfl, hvi, C.bind_ok]
        rfl
      rw [eh]
      clear eh
      by_cases hb : v.arr = []
      · rw [if_pos (by simp [hb])]
        rw [if_pos hb] at hv
        cases hw : writeAt (zeros (v.curElementLen + lenVarIntN v.curElementLen)) 0 vi with
        | none => rw [hw] at hv; cases hv
        | some arr =>
          rw [hw] at hv
          have hlen := writeAt_len hw
          simp only [zeros, List.length_replicate] at hlen
          injection hv with hv
          subst hv
          have hne : arr ≠ [] := by rintro rfl; simp at hlen; omega
          cases hden : h.denies h.next (v.curElementLen + lenVarIntN v.curElementLen) with
          | true =>
            right
            obtain ⟨e, s⟩ := calloc_denied w hden
            refine ⟨0, false, (h.calloc (v.curElementLen + lenVarIntN v.curElementLen)).2, ?_, ?_, ?_, fun ⟨g, hs⟩ => ?_⟩
            · dsimp only
              rw [if_pos e, e]
              rfl
            · exact wat_nil s.wf.null (Nat.zero_le _) (by simp)
            · simpa [hb] using s
            · have := (g _ _ (by omega)).1 hden
              dsimp only at hs
              omega
          | false =>
            left
            obtain ⟨e, hbl, s⟩ := calloc_granted w hden
            obtain ⟨h2, w2, b2, -, s2⟩ := write_ok s.wf hbl hw
            refine ⟨(h.calloc (v.curElementLen + lenVarIntN v.curElementLen)).1, h2, ?_, wat_some _ hne b2, ?_⟩
            · dsimp only
              rw [if_neg e, w2, C.bind_ok]
              unfold of
              dsimp only
              rw [hlen]
              rfl
            · rw [wptr_ne hne, hb, wptr_nil, own_zero]
              exact s.trans s2
      · rw [if_neg (by simpa using hb)]
        rw [if_neg hb] at hv
        have hbl := a.block hb
        have hpos := List.length_pos_iff.2 hb
        rw [wptr_ne hb]
        cases hw : writeAt (v.arr ++ zeros (v.curElementLen + lenVarIntN v.curElementLen)) off vi with
        | none => rw [hw] at hv; cases hv
        | some arr =>
          rw [hw] at hv
          have hlen := writeAt_len hw
          simp only [zeros, List.length_append, List.length_replicate] at hlen
          injection hv with hv
          subst hv
          have hne : arr ≠ [] := by rintro rfl; simp at hlen; omega
          cases hden : h.denies h.next (v.arr.length + v.curElementLen + lenVarIntN v.curElementLen) with
          | true =>
            right
            obtain ⟨h1, er, hb1, s1⟩ := realloc_denied w hbl hden
            obtain ⟨h2, ef, s2⟩ := free_ok s1.wf (Or.inr ⟨_, hb1⟩)
            refine ⟨p, true, h2, ?_, ?_, by simpa using s1.trans s2, fun ⟨g, hs⟩ => ?_⟩
            · rw [er, C.bind_ok]
              dsimp only
              rw [if_pos rfl, ef, C.bind_ok]
              rfl
            · refine wat_nil ?_ (le_trans (s1.wf.le hb1) s2.le) (by simp [w.ne hbl])
              exact s2.dead p (Or.inl (mem_own.2 ⟨rfl, w.ne hbl⟩)) (by simp)
            · have := (g _ _ (by omega)).1 hden
              dsimp only at hs
              omega
          | false =>
            left
            obtain ⟨p', h1, er, hp', hb1, s1⟩ := realloc_granted w hbl hden
            rw [show v.arr.take (v.arr.length + v.curElementLen + lenVarIntN v.curElementLen) ++ zeros (v.arr.length + v.curElementLen + lenVarIntN v.curElementLen - v.arr.length) =
                v.arr ++ zeros (v.curElementLen + lenVarIntN v.curElementLen) from by
              rw [List.take_of_length_le (by omega)]
              congr 2
              omega] at hb1
            obtain ⟨h2, w2, b2, -, s2⟩ := write_ok s1.wf hb1 hw
            refine ⟨p', h2, ?_, wat_some _ hne b2, ?_⟩
            · rw [er, C.bind_ok]
              dsimp only
              rw [if_neg hp', w2, C.bind_ok]
              unfold of
              dsimp only
              rw [hlen]
              rfl
            · rw [wptr_ne hne]
              exact s1.trans s2
  · rw [if_neg hc] at hv
    rw [if_neg (show ¬ ((of v p).curBytesParsed + cr = (of v p).curLen ∧ cr > 0) from hc)]
    injection hv with hv
    subst hv
    left
    refine ⟨p, h, rfl, ?_, Step.refl w a.at.owned⟩
    by_cases hb : v.arr = []
    · rw [hb] at a ⊢
      simpa [restale] using a
    · exact wat_some _ hb (a.block hb)

/-- Script.cpp:571-624. -/
theorem round_ok {h : Heap} (w : h.Wf) {v : Witness} {p : Nat} {st : Bool} (a : WAt h p v.arr st) (pos : Nat) (s : PStream) :
    match v.round pos s with
    | .ub _ => True
    | .fail v1 cr s1 => (of v p).round pos s h = .ok (.fail (of v1 p) cr s1 h) ∧ v1.arr = v.arr ∧ v1.status = .failed
    | .next v1 cr s1 => (v.arr.length ≤ v1.arr.length ∧ v1.status = v.status) ∧
        ((∃ p' h', (of v p).round pos s h = .ok (.next (of v1 p') cr s1 h') ∧ WAt h' p' v1.arr (restale v.arr v1.arr st) ∧
          Step h h' (own (wptr p v.arr)) (own (wptr p' v1.arr))) ∨
        (∃ v' p' st' s' h', (of v p).round pos s h = .ok (.noMem (of v' p') s' h') ∧ v'.status = .failed ∧ WAt h' p' v'.arr st' ∧
          Step h h' (own (wptr p v.arr)) (own (wptr p' v'.arr)) ∧ ¬ (h.Generous ∧ v1.arr.length < 2 ^ 63))) := by
  have er : (of v p).round pos s h = (do
      let (w, cr, s) ← (of v p).elemLen s
      if lenVarIntN w.curElementLen ≠ w.curLen ∧ w.curBytesParsed + cr = w.curLen then
        return .fail { w with status := .failed, curBytesParsed := w.curBytesParsed + cr } cr s h
      else
        let (good, w, h) ← w.elemAlloc cr (pos - lenVarIntN v.numElements - v.curBytesParsed) h
        if good then
          let total := w.curElementLen + lenVarIntN w.curElementLen
          let (bs, s) := s.readN (total - (w.curBytesParsed + cr))
          let h ← h.write w.ptr (pos - lenVarIntN v.numElements - v.curBytesParsed + w.curBytesParsed + cr) bs
          let cr := cr + bs.length
          if w.curBytesParsed + cr = total then
            return .next { w with curLen := 0, curElementLen := 0, curElement := w.curElement + 1, curBytesParsed := 0 } cr s h
          else return .next { w with curBytesParsed := w.curBytesParsed + cr } cr s h
        else return .noMem w s h) := rfl
  rw [er, elemLen_eq]
  clear er
  unfold Witness.round
  dsimp only
  cases hel : v.elemLen s with
  | none => trivial
  | some x =>
    obtain ⟨v0, cr, s0⟩ := x
    obtain ⟨harr, hst0⟩ := elemLen_arr hel
    have a0 : WAt h p v0.arr st := by rw [harr]; exact a
    dsimp only
    rw [C.bind_ok]
    dsimp only
    by_cases hc : lenVarIntN v0.curElementLen ≠ v0.curLen ∧ v0.curBytesParsed + cr = v0.curLen
    · rw [if_pos hc, if_pos (show lenVarIntN (of v0 p).curElementLen ≠ (of v0 p).curLen ∧ (of v0 p).curBytesParsed + cr = (of v0 p).curLen from hc)]
      exact ⟨rfl, harr, rfl⟩
    · rw [if_neg hc, if_neg (show ¬ (lenVarIntN (of v0 p).curElementLen ≠ (of v0 p).curLen ∧ (of v0 p).curBytesParsed + cr = (of v0 p).curLen) from hc)]
      cases hal : v0.elemAlloc cr (pos - lenVarIntN v.numElements - v.curBytesParsed) with
      | none => trivial
      | some v1 =>
        obtain ⟨hlen1, hst1⟩ := elemAlloc_len hal
        rw [harr] at hlen1
        have hmain := elemAlloc_ok w a0 cr _ hal
        dsimp only
        generalize hrd : s0.readN (v1.curElementLen + lenVarIntN v1.curElementLen - (v1.curBytesParsed + cr)) = rd
        obtain ⟨bs, s2⟩ := rd
        dsimp only
        cases hw : writeAt v1.arr (pos - lenVarIntN v.numElements - v.curBytesParsed + v1.curBytesParsed + cr) bs with
        | none => trivial
        | some arr =>
          have hlen2 := writeAt_len hw
          have hres : v.arr.length ≤ arr.length := by omega
          have key : ∀ v2 : Witness, v2.arr = arr →
              (∃ p' h1 h', (of v0 p).elemAlloc cr (pos - lenVarIntN v.numElements - v.curBytesParsed) h = .ok (true, of v1 p', h1) ∧
                h1.write p' (pos - lenVarIntN v.numElements - v.curBytesParsed + v1.curBytesParsed + cr) bs = .ok h' ∧
                WAt h' p' v2.arr (restale v.arr v2.arr st) ∧ Step h h' (own (wptr p v.arr)) (own (wptr p' v2.arr))) ∨
              (∃ v' p' st' h', (of v0 p).elemAlloc cr (pos - lenVarIntN v.numElements - v.curBytesParsed) h = .ok (false, of v' p', h') ∧
                v'.status = .failed ∧ WAt h' p' v'.arr st' ∧
                Step h h' (own (wptr p v.arr)) (own (wptr p' v'.arr)) ∧ ¬ (h.Generous ∧ v2.arr.length < 2 ^ 63)) := by
            intro v2 e2
            rcases hmain with ⟨p1, h1, e1, a1, s1⟩ | ⟨p1, st1, h1, e1, a1, s1, ng⟩
            · left
              rw [harr] at a1 s1
              by_cases hb : v1.arr = []
              · have : bs = [] := by
                  by_contra hne
                  rw [hb] at hw
                  unfold writeAt at hw
                  rw [if_neg hne] at hw
                  split at hw
                  · rename_i hle
                    have := List.length_pos_iff.2 hne
                    rw [List.length_nil] at hle
                    omega
                  · cases hw
                subst this
                have earr : arr = [] := by
                  rw [hb] at hlen2
                  exact List.length_eq_zero_iff.1 hlen2
                refine ⟨p1, h1, h1, e1, write_nil _ _ _, ?_, ?_⟩
                · rw [e2, earr, ← hb]; exact a1
                · rw [e2, earr, ← hb]; exact s1
              · obtain ⟨h2, w2, b2, -, s2⟩ := write_ok s1.wf (a1.block hb) hw
                have hne : arr ≠ [] := by
                  rintro rfl
                  exact hb (List.length_eq_zero_iff.1 hlen2.symm)
                refine ⟨p1, h1, h2, e1, w2, ?_, ?_⟩
                · rw [e2]; exact wat_some _ hne b2
                · rw [e2, wptr_ne hne]
                  rw [wptr_ne hb] at s1
                  exact s1.trans s2
            · right
              rw [harr] at s1
              exact ⟨_, p1, st1, h1, e1, rfl, a1, s1, fun ⟨g, hl⟩ => ng ⟨g, by rw [e2] at hl; omega⟩⟩
          dsimp only
          by_cases hend : v1.curBytesParsed + (cr + bs.length) = v1.curElementLen + lenVarIntN v1.curElementLen
          · rw [if_pos hend]
            refine ⟨⟨hres, hst1.trans hst0⟩, ?_⟩
            rcases key { v1 with arr := arr, curLen := 0, curElementLen := 0, curElement := v1.curElement + 1, curBytesParsed := 0 } rfl with
              ⟨p', h1, h', e1, ew, a', s'⟩ | ⟨v', p', st', h', e1, hst, a', s', ng⟩
            · left
              refine ⟨p', h', ?_, a', s'⟩
              rw [e1, C.bind_ok]
              dsimp only [of]
              rw [if_pos rfl]
              simp only [hrd]
              rw [ew, C.bind_ok, if_pos hend]
              rw [hlen2]
              rfl
            · right
              refine ⟨v', p', st', s0, h', ?_, hst, a', s', ng⟩
              rw [e1, C.bind_ok]
              rfl
          · rw [if_neg hend]
            refine ⟨⟨hres, hst1.trans hst0⟩, ?_⟩
            rcases key { v1 with arr := arr, curBytesParsed := v1.curBytesParsed + (cr + bs.length) } rfl with
              ⟨p', h1, h', e1, ew, a', s'⟩ | ⟨v', p', st', h', e1, hst, a', s', ng⟩
            · left
              refine ⟨p', h', ?_, a', s'⟩
              rw [e1, C.bind_ok]
              dsimp only [of]
              rw [if_pos rfl]
              simp only [hrd]
              rw [ew, C.bind_ok, if_neg hend]
              rw [hlen2]
              rfl
            · right
              refine ⟨v', p', st', s0, h', ?_, hst, a', s', ng⟩
              rw [e1, C.bind_ok]
              rfl

theorem restale_self {b : Bytes} {st : Bool} {h : Heap} {p : Nat} (a : WAt h p b st) : WAt h p b (restale b b st) := by
  by_cases hb : b = []
  · subst hb
    simpa [restale] using a
  · exact wat_some _ hb (a.block hb)

theorem restale_trans {a b c : Bytes} (st : Bool) (h : b ≠ [] → c ≠ []) : restale b c (restale a b st) = restale a c st := by
  unfold restale
  by_cases hb : b = []
  · by_cases hc : c = [] <;> simp [hb, hc]
  · simp [h hb]

theorem loop_len : ∀ (fuel : Nat) (v : Witness) (br : Nat) (s : PStream), v.arr.length ≤ (Witness.loop fuel v br s).1.arr.length := by
  intro fuel
  induction fuel with
  | zero => intro v br s; exact Nat.le_refl _
  | succ fuel ih =>
    intro v br s
    rw [Witness.loop]
    split
    · have hr := round_ok (h := ⟨fun q => if v.arr = [] then none else if q = 1 then some v.arr else none, 1, fun _ _ => false⟩)
        ⟨by dsimp only; split <;> simp, by intro q hq; dsimp only at hq ⊢; split; rfl; rw [if_neg (by omega)],
          fun g => by have := g 0 (2 ^ 63) (le_refl _); cases this⟩ (v := v) (p := if v.arr = [] then 0 else 1) (st := false)
        (by
          by_cases hb : v.arr = []
          · rw [hb]; exact wat_nil (by simp) (by simp) (by simp)
          · exact wat_some _ hb (by simp [hb])) (v.bytesParsed + br) s
      split
      · exact Nat.le_refl _
      · rename_i e
        rw [e] at hr
        show _ ≤ List.length (Witness.arr _)
        rw [hr.2.1]
      · rename_i e
        rw [e] at hr
        exact le_trans hr.1.1 (ih _ _ _)
    · exact Nat.le_refl _

/-- Script.cpp:570-630. -/
theorem loop_ok : ∀ (fuel : Nat) {h : Heap} (_ : h.Wf) {v : Witness} {p : Nat} {st : Bool} (_ : WAt h p v.arr st) (br : Nat) (s : PStream)
    (_ : v.status ≠ .ub) (_ : (Witness.loop fuel v br s).1.status ≠ .ub),
    ∃ v' p' st' r s' h', loop fuel (of v p) br s h = .ok (of v' p', r, s', h') ∧ WAt h' p' v'.arr st' ∧
      Step h h' (own (wptr p v.arr)) (own (wptr p' v'.arr)) ∧ v'.status ≠ .ub ∧
      (h.Generous → (Witness.loop fuel v br s).1.arr.length < 2 ^ 63 →
        Witness.loop fuel v br s = (v', r, s') ∧ st' = restale v.arr v'.arr st) := by
  intro fuel
  have hfin : ∀ {h : Heap} (_ : h.Wf) {v : Witness} {p : Nat} {st : Bool} (_ : WAt h p v.arr st) (br : Nat) (s : PStream) (_ : v.status ≠ .ub),
    ∃ v' p' st' r s' h', (return loop.finish (of v p) br s h : C (HWitness × Nat × PStream × Heap)) = .ok (of v' p', r, s', h') ∧ WAt h' p' v'.arr st' ∧
      Step h h' (own (wptr p v.arr)) (own (wptr p' v'.arr)) ∧ v'.status ≠ .ub ∧
      (h.Generous → (Witness.loop.finish v br s).1.arr.length < 2 ^ 63 →
        Witness.loop.finish v br s = (v', r, s') ∧ st' = restale v.arr v'.arr st) := by
    intro h w v p st a br s hst
    refine ⟨(Witness.loop.finish v br s).1, p, restale v.arr v.arr st, br, s, h, rfl, restale_self a, Step.refl w a.at.owned, ?_, fun _ _ => ⟨rfl, rfl⟩⟩
    unfold Witness.loop.finish
    dsimp only
    split
    · simp
    · exact hst
  induction fuel with
  | zero =>
    intro h w v p st a br s hst hub
    exact hfin w a br s hst
  | succ fuel ih =>
    intro h w v p st a br s hst hub
    rw [Witness.loop] at hub
    rw [loop, Witness.loop]
    by_cases hc : s.avail ∧ v.curElement < v.numElements
    · rw [if_pos hc] at hub
      rw [if_pos hc, if_pos (show s.avail ∧ (of v p).curElement < (of v p).numElements from hc)]
      have hr := round_ok w a (v.bytesParsed + br) s
      cases hrv : v.round (v.bytesParsed + br) s with
      | ub s1 => rw [hrv] at hub; exact absurd rfl hub
      | fail v1 cr s1 =>
        rw [hrv] at hr
        dsimp only at hr ⊢
        obtain ⟨er, harr, hf⟩ := hr
        refine ⟨{ v1 with bytesParsed := v1.bytesParsed + (br + cr) }, p, restale v.arr v.arr st, br + cr, s1, h, ?_, ?_, ?_, ?_, fun _ _ => ⟨rfl, ?_⟩⟩
        · rw [show (of v p).bytesParsed = v.bytesParsed from rfl, er, C.bind_ok]
          rfl
        · show WAt h p v1.arr _
          rw [harr]
          exact restale_self a
        · show Step h h _ (own (wptr p v1.arr))
          rw [harr]
          exact Step.refl w a.at.owned
        · show v1.status ≠ .ub
          rw [hf]
          simp
        · show _ = restale v.arr v1.arr st
          rw [harr]
      | next v1 cr s1 =>
        rw [hrv] at hr hub
        dsimp only at hr hub ⊢
        obtain ⟨⟨hlen, hse⟩, hr⟩ := hr
        have hst1 : v1.status ≠ .ub := by rw [hse]; exact hst
        rcases hr with ⟨p1, h1, er, a1, s1'⟩ | ⟨v', p', st', s', h', er, hf, a', s'', ng⟩
        · obtain ⟨v', p', st', r, s', h', e, a', s2, hst', hg⟩ := ih s1'.wf a1 (br + cr) s1 hst1 hub
          refine ⟨v', p', st', r, s', h', ?_, a', s1'.trans s2, hst', fun g hl => ?_⟩
          · rw [show (of v p).bytesParsed = v.bytesParsed from rfl, er, C.bind_ok]
            exact e
          · obtain ⟨e1, e2⟩ := hg (s1'.generous g) hl
            refine ⟨e1, ?_⟩
            rw [e2]
            refine restale_trans _ fun hb hc => ?_
            have := loop_len fuel v1 (br + cr) s1
            rw [e1] at this
            rw [hc] at this
            exact hb (List.length_eq_zero_iff.1 (by simpa using this))
        · refine ⟨v', p', st', 0, s', h', ?_, a', s'', by rw [hf]; simp, fun g hl => ?_⟩
          · rw [show (of v p).bytesParsed = v.bytesParsed from rfl, er, C.bind_ok]
            rfl
          · have := loop_len fuel v1 (br + cr) s1
            exact absurd ⟨g, by omega⟩ ng
    · rw [if_neg hc, if_neg (show ¬ (s.avail ∧ (of v p).curElement < (of v p).numElements) from hc)]
      exact hfin w a br s hst

theorem start_ok {h : Heap} (w : h.Wf) {v : Witness} {p : Nat} {st : Bool} (a : WAt h p v.arr st) :
    ∃ st1 h', (of v p).start h = .ok (of v.start p, h') ∧ WAt h' p v.start.arr st1 ∧
      Step h h' (own (wptr p v.arr)) (own (wptr p v.start.arr)) ∧ st1 = restale v.arr v.start.arr st ∧
      v.start.arr = (if v.status = .done then [] else v.arr) := by
  unfold start Witness.start
  by_cases hd : v.status = .done
  · rw [if_pos (show (of v p).status = .done from hd)]
    obtain ⟨h', e, a', s⟩ := clear_ok w (v := { v with curLen := 0 }.reset) (p := p) (st := st) a
    refine ⟨_, h', ?_, ?_, ?_, rfl, ?_⟩
    · rw [show ({ of v p with curLen := 0 } : HWitness).reset = of ({ v with curLen := 0 } : Witness).reset p from rfl, e, C.bind_ok]
      simp only [if_pos hd]
      rfl
    · simp only [if_pos hd]
      show WAt h' p [] (restale v.arr [] st)
      have : restale v.arr [] st = (st || decide (v.arr ≠ [])) := by simp [restale]
      rw [this]
      exact a'
    · simp only [if_pos hd]
      simpa [Witness.clear, Witness.reset] using s
    · simp only [if_pos hd]
      rfl
  · rw [if_neg (show ¬ (of v p).status = .done from hd)]
    refine ⟨restale v.arr v.arr st, h, ?_, ?_, ?_, ?_, ?_⟩
    · simp only [if_neg hd]
      rfl
    · simp only [if_neg hd]
      exact restale_self a
    · simp only [if_neg hd]
      exact Step.refl w a.at.owned
    · simp only [if_neg hd]
    · simp only [if_neg hd]

theorem body_ok {h : Heap} (w : h.Wf) {v : Witness} {p : Nat} {st : Bool} (a : WAt h p v.arr st) (br : Nat) (s : PStream)
    (hst : v.status ≠ .ub) (hub : (Witness.fromStream.body v br s).1.status ≠ .ub) :
    ∃ v' p' st' r s' h', fromStream.body (of v p) br s h = .ok (of v' p', r, s', h') ∧ WAt h' p' v'.arr st' ∧
      Step h h' (own (wptr p v.arr)) (own (wptr p' v'.arr)) ∧ v'.status ≠ .ub ∧
      (h.Generous → (Witness.fromStream.body v br s).1.arr.length < 2 ^ 63 →
        Witness.fromStream.body v br s = (v', r, s') ∧ st' = restale v.arr v'.arr st ∧ (v.arr ≠ [] → v'.arr ≠ [])) := by
  unfold Witness.fromStream.body at *
  unfold fromStream.body
  by_cases hc : v.bytesParsed + br = v.lenLen ∧ lenVarIntN v.numElements ≠ v.lenLen
  · rw [if_pos hc, if_pos (show (of v p).bytesParsed + br = (of v p).lenLen ∧ lenVarIntN (of v p).numElements ≠ (of v p).lenLen from hc)]
    exact ⟨{ v with status := .failed, bytesParsed := v.bytesParsed + br }, p, restale v.arr v.arr st, br, s, h, rfl, restale_self a,
      Step.refl w a.at.owned, by simp, fun _ _ => ⟨rfl, rfl, id⟩⟩
  · rw [if_neg hc] at hub
    rw [if_neg hc, if_neg (show ¬ ((of v p).bytesParsed + br = (of v p).lenLen ∧ lenVarIntN (of v p).numElements ≠ (of v p).lenLen) from hc)]
    obtain ⟨v', p', st', r, s', h', e, a', s1, hs, hg⟩ := loop_ok (v.numElements - v.curElement) w a br s hst hub
    refine ⟨v', p', st', r, s', h', e, a', s1, hs, fun g hl => ?_⟩
    obtain ⟨e1, e2⟩ := hg g hl
    refine ⟨e1, e2, fun hb hc => ?_⟩
    have := loop_len (v.numElements - v.curElement) v br s
    rw [e1, hc] at this
    exact hb (List.length_eq_zero_iff.1 (by simpa using this))

/-- Script.cpp:535-631. -/
theorem fromStream_ok {h : Heap} (w : h.Wf) {v : Witness} {p : Nat} {st : Bool} (a : WAt h p v.arr st) (s : PStream)
    (hub : (v.fromStream s).1.status ≠ .ub) :
    ∃ v' p' st' r s' h', (of v p).fromStream s h = .ok (of v' p', r, s', h') ∧ WAt h' p' v'.arr st' ∧
      Step h h' (own (wptr p v.arr)) (own (wptr p' v'.arr)) ∧ v'.status ≠ .ub ∧
      (h.Generous → (v.fromStream s).1.arr.length < 2 ^ 63 → v.fromStream s = (v', r, s') ∧ st' = restale v.arr v'.arr st) := by
  unfold Witness.fromStream at *
  unfold fromStream
  by_cases hstop : v.status = .failed ∨ v.status = .ub
  · rw [if_pos hstop] at hub
    rw [if_pos hstop, if_pos (show (of v p).status = .failed ∨ (of v p).status = .ub from hstop)]
    exact ⟨v, p, restale v.arr v.arr st, 0, s, h, rfl, restale_self a, Step.refl w a.at.owned, hub, fun _ _ => ⟨rfl, rfl⟩⟩
  · rw [if_neg hstop] at hub
    rw [if_neg hstop, if_neg (show ¬ ((of v p).status = .failed ∨ (of v p).status = .ub) from hstop)]
    obtain ⟨st1, h1, e1, a1, s1, hs1, harr⟩ := start_ok w a
    have hsub : v.start.status ≠ .ub := by unfold Witness.start; simp
    rw [e1, C.bind_ok]
    dsimp only at hub ⊢
    by_cases h0 : s.avail ∧ v.start.bytesParsed = 0
    · rw [if_pos h0] at hub
      rw [if_pos h0, if_pos (show s.avail ∧ (of v.start p).bytesParsed = 0 from h0)]
      by_cases hb : s.readByte.1 < 0xfd
      · rw [if_pos hb] at hub
        rw [if_pos hb, if_pos hb]
        obtain ⟨v', p', st', r, s', h', e, a', s2, hst', hg⟩ := body_ok s1.wf (v := { v.start with numElements := s.readByte.1.toNat, lenLen := 1 })
          (p := p) (st := st1) a1 1 s.readByte.2 hsub hub
        refine ⟨v', p', st', r, s', h', e, a', s1.trans s2, hst', fun g hl => ?_⟩
        obtain ⟨g1, g2, g3⟩ := hg (s1.generous g) hl
        exact ⟨g1, by rw [g2, hs1]; exact restale_trans _ g3⟩
      · rw [if_neg hb, if_neg hb]
        refine ⟨{ v.start with lenLen := s.readByte.1.toNat, numElements := 0, status := .failed, bytesParsed := v.start.bytesParsed + 1 }, p, st1, 1, s.readByte.2, h1,
          rfl, a1, s1, by simp, fun _ _ => ⟨rfl, hs1⟩⟩
    · rw [if_neg h0] at hub
      rw [if_neg h0, if_neg (show ¬ (s.avail ∧ (of v.start p).bytesParsed = 0) from h0)]
      obtain ⟨v', p', st', r, s', h', e, a', s2, hst', hg⟩ := body_ok s1.wf a1 0 s hsub hub
      refine ⟨v', p', st', r, s', h', e, a', s1.trans s2, hst', fun g hl => ?_⟩
      obtain ⟨g1, g2, g3⟩ := hg (s1.generous g) hl
      exact ⟨g1, by rw [g2, hs1]; exact restale_trans _ g3⟩

end HWitness
end UB
