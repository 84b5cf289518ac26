import Verif.Lemmas.Heap

/-! `Script` objects on the heap against the values of Model/Script.lean. -/

namespace UB
open Heap

namespace Heap

/-- Address `p` holds the bytes `b`: it is NULL and there are none, or it is a block with these contents. -/
def At (h : Heap) (p : Nat) (b : Bytes) : Prop := (p = 0 ∧ b = []) ∨ h.blocks p = some b

/-- The code which owned block `p` owns block `p'` now and has lost track of the blocks `E`. -/
def Moves (h h' : Heap) (p p' : Nat) (E : Finset Nat) : Prop := Step h h' (own p) (own p' ∪ E) ∧ Disjoint (own p') E

/-- An allocator which grants what a 64-bit machine can grant: requests below 2^63 bytes succeed, others fail. A request for 0 bytes
may go either way. -/
def Generous (h : Heap) : Prop := ∀ n size, 0 < size → (h.denies n size = true ↔ 2 ^ 63 ≤ size)

theorem Step.generous {h h' : Heap} {A B : Finset Nat} (s : Step h h' A B) (g : h.Generous) : h'.Generous := by
  unfold Generous
  rw [s.denies]
  exact g

theorem Generous.grants {h : Heap} (g : h.Generous) {n size : Nat} (h0 : 0 < size) (h1 : size < 2 ^ 63) : h.denies n size = false := by
  cases e : h.denies n size with
  | false => rfl
  | true => exact absurd ((g n size h0).1 e) (by omega)

theorem At.live {h : Heap} {p : Nat} {b : Bytes} (a : At h p b) : p = 0 ∨ ∃ b, h.blocks p = some b := by
  rcases a with a | a
  · exact Or.inl a.1
  · exact Or.inr ⟨b, a⟩

theorem At.block {h : Heap} {p : Nat} {b : Bytes} (a : At h p b) (hb : b ≠ []) : h.blocks p = some b := by
  rcases a with a | a
  · exact absurd a.2 hb
  · exact a

theorem At.owned {h : Heap} {p : Nat} {b : Bytes} (a : At h p b) : ∀ q ∈ own p, h.blocks q ≠ none := by
  intro q hq
  rw [mem_own] at hq
  obtain ⟨rfl, hp⟩ := hq
  rcases a with a | a
  · exact absurd a.1 hp
  · simp [a]

theorem At.keep {h h' : Heap} {A B : Finset Nat} (s : Step h h' A B) (w : h.Wf) {p : Nat} {b : Bytes} (a : At h p b)
    (hp : ∀ q ∈ own p, q ∉ A) : At h' p b := by
  rcases a with a | a
  · exact Or.inl a
  · exact Or.inr (s.keep w (hp p (mem_own.2 ⟨rfl, w.ne a⟩)) a)

theorem at_null (h : Heap) : At h 0 [] := Or.inl ⟨rfl, rfl⟩

theorem Moves.ofStep {h h' : Heap} {p p' : Nat} (s : Step h h' (own p) (own p')) : Moves h h' p p' ∅ :=
  ⟨by simpa using s, by simp⟩

theorem Moves.refl {h : Heap} (w : h.Wf) {p : Nat} {b : Bytes} (a : At h p b) : Moves h h p p ∅ := .ofStep (Step.refl w a.owned)

theorem Moves.trans {h h1 h2 : Heap} {p p1 p2 : Nat} {E1 E2 : Finset Nat} (m1 : Moves h h1 p p1 E1)
    (m2 : Moves h1 h2 p1 p2 E2) : Moves h h2 p p2 (E1 ∪ E2) := by
  obtain ⟨s1, d1⟩ := m1
  obtain ⟨s2, d2⟩ := m2
  have hd : ∀ q ∈ E1, q ∉ own p1 := fun q hq hc => Finset.disjoint_left.1 d1 hc hq
  have f := s2.frame s1.wf E1 hd (fun q hq => s1.live q (Finset.mem_union_right _ hq))
  refine ⟨?_, ?_⟩
  · have : own p2 ∪ E2 ∪ E1 = own p2 ∪ (E1 ∪ E2) := by
      rw [Finset.union_assoc, Finset.union_comm E2]
    rw [← this]
    exact s1.trans f
  · rw [Finset.disjoint_union_right]
    refine ⟨?_, d2⟩
    rw [Finset.disjoint_left]
    intro q hq hc
    have hl := s1.live q (Finset.mem_union_right _ hc)
    cases hb : h1.blocks q with
    | none => exact hl hb
    | some b => exact s2.notIn s1.wf (hd q hc) hb (Finset.mem_union_left _ hq)

/-- A block whose address is overwritten. -/
theorem Moves.drop {h h' : Heap} (w : h.Wf) {p p' : Nat} {b : Bytes} (a : At h p b) (s : Step h h' ∅ (own p')) :
    Moves h h' p p' (own p) := by
  have f := s.frame w (own p) (by simp) a.owned
  refine ⟨by simpa using f, ?_⟩
  rw [Finset.disjoint_left]
  intro q hq hc
  rcases s.fresh q hq with h1 | h1
  · simp at h1
  · rcases a with a | a
    · rw [a.1] at hc; simp at hc
    · rw [(mem_own.1 hc).1] at h1
      exact absurd (w.le a) (by omega)

/-- Addresses obtained since are different. -/
theorem fresh_disjoint {h h1 : Heap} {a p : Nat} {b : Bytes} (w : h.Wf) (s1 : Step h h1 ∅ (own a)) (at_ : At h p b) :
    ∀ q ∈ own a, q ∉ own p := by
  intro q hq hc
  rcases s1.fresh q hq with h2 | h2
  · simp at h2
  · rcases at_ with e | e
    · rw [e.1] at hc; simp at hc
    · rw [(mem_own.1 hc).1] at h2
      exact absurd (w.le e) (by omega)

/-- A block `t` obtained before and never given back. -/
theorem Moves.leak {h h1 h2 : Heap} {t p p' : Nat} {b : Bytes} {E : Finset Nat} (w : h.Wf) (s1 : Step h h1 ∅ (own t)) (a : At h p b)
    (m : Moves h1 h2 p p' E) : Moves h h2 p p' (E ∪ own t) := by
  obtain ⟨s, d⟩ := m
  have hd := fresh_disjoint w s1 a
  have f1 := s1.frame w (own p) (by simp) a.owned
  have f2 := s.frame s1.wf (own t) hd s1.live
  refine ⟨?_, ?_⟩
  · rw [Finset.empty_union, Finset.union_comm] at f1
    rw [← Finset.union_assoc]
    exact f1.trans f2
  · rw [Finset.disjoint_union_right]
    refine ⟨d, ?_⟩
    rw [Finset.disjoint_left]
    intro q hq hc
    cases hb : h1.blocks q with
    | none => exact s1.live q hc hb
    | some b => exact s.notIn s1.wf (hd q hc) hb (Finset.mem_union_left _ hq)

/-- A block `t` obtained before and given back afterwards. -/
theorem Moves.around {h h1 h2 h3 : Heap} {t p p' : Nat} {b : Bytes} {E : Finset Nat} (w : h.Wf) (s1 : Step h h1 ∅ (own t)) (a : At h p b)
    (m : Moves h1 h2 p p' E) (s3 : Step h2 h3 (own t) ∅) : Moves h h3 p p' E := by
  have hd := fresh_disjoint w s1 a
  have hE : ∀ q ∈ own p' ∪ E, q ∉ own t := by
    intro q hq hc
    cases hb : h1.blocks q with
    | none => exact s1.live q hc hb
    | some b => exact m.1.notIn s1.wf (hd q hc) hb hq
  obtain ⟨s, d⟩ := Moves.leak w s1 a m
  have f := s3.frame s.wf (own p' ∪ E) hE (fun q hq => m.1.live q hq)
  refine ⟨?_, m.2⟩
  rw [Finset.empty_union] at f
  have e : own p' ∪ (E ∪ own t) = own t ∪ (own p' ∪ E) := by rw [← Finset.union_assoc, Finset.union_comm]
  rw [e] at s
  exact s.trans f

end Heap

/-- A script value as an object with its bytes at address `p`. -/
def HScript.of (v : Script) (p : Nat) : HScript := ⟨v.status, v.bytesParsed, v.lenLen, v.scriptLen, p⟩

/-- The block is as large as the script. -/
def Script.Fits (v : Script) : Prop := v.scriptLen ≤ v.arr.length ∧ v.scriptLen < 2 ^ 64

/-- The block is as large as the script, unless the object is in the middle of a length prefix. -/
def Script.Sized (v : Script) : Prop :=
  (¬ (v.status = .incomplete ∧ v.bytesParsed < v.lenLen) → v.scriptLen ≤ v.arr.length) ∧ v.scriptLen < 2 ^ 64

/-- The script as the code that uses it sees it. -/
def Script.bytes (v : Script) : Bytes := v.arr.take v.scriptLen

namespace HScript

theorem clear_ok {h : Heap} (w : h.Wf) {v : Script} {p : Nat} (a : At h p v.arr) (hv : v.scriptLen ≤ v.arr.length) :
    ∃ p' h', (of v p).clear h = .ok (of v.clear p', h') ∧ At h' p' v.clear.arr ∧ Step h h' (own p) (own p') ∧
      (0 < v.scriptLen → p' = 0) ∧ (v.scriptLen = 0 → p' = p ∧ h' = h) := by
  by_cases hs : v.scriptLen > 0
  · have hb := a.block (by rintro e; simp [e] at hv; omega)
    have hp := w.ne hb
    refine ⟨0, h.set p none, ?_, ?_, Step.set_none w hb, fun _ => rfl, fun e => by omega⟩
    · unfold clear
      rw [if_pos ⟨hs, hp⟩]
      show (do let h ← h.free p; _) = _
      rw [free_live hb hp, C.bind_ok, Script.clear, if_pos hs]
      rfl
    · rw [Script.clear, if_pos hs]
      exact at_null _
  · refine ⟨p, h, ?_, ?_, Step.refl w a.owned, fun e => absurd e hs, fun _ => ⟨rfl, rfl⟩⟩
    · unfold clear
      rw [if_neg (fun e => hs e.1), Script.clear, if_neg hs]
      rfl
    · rw [Script.clear, if_neg hs]
      exact a

theorem destroy_ok {h : Heap} (w : h.Wf) {v : Script} {p : Nat} (a : At h p v.arr) :
    ∃ h', (of v p).destroy h = .ok h' ∧ Step h h' (own p) ∅ := by
  obtain ⟨h', e, s⟩ := free_ok w a.live
  refine ⟨h', ?_, s⟩
  unfold destroy
  show (if p ≠ 0 then h.free p else .ok h) = _
  split
  · exact e
  · rename_i hp
    rw [not_not] at hp
    subst hp
    exact e

/-- What `calloc`, the test for NULL and writing all of the new block come to. -/
theorem calloc_fill {h : Heap} (w : h.Wf) (bs : Bytes) :
    ((h.calloc bs.length).1 = 0 ∧ Step h (h.calloc bs.length).2 ∅ ∅ ∧ h.denies h.next bs.length = true) ∨
    ((h.calloc bs.length).1 ≠ 0 ∧ h.denies h.next bs.length = false ∧ ∃ h', (h.calloc bs.length).2.write (h.calloc bs.length).1 0 bs = .ok h' ∧
      h'.blocks (h.calloc bs.length).1 = some bs ∧ Step h h' ∅ (own (h.calloc bs.length).1)) := by
  cases hd : h.denies h.next bs.length with
  | true =>
    obtain ⟨h1, h2⟩ := calloc_denied w hd
    exact Or.inl ⟨h1, h2, rfl⟩
  | false =>
    obtain ⟨h1, h2, h3⟩ := calloc_granted w hd
    obtain ⟨h', e, hb, -, s⟩ := write_ok h3.wf h2 (writeAt_zeros bs)
    exact Or.inr ⟨h1, rfl, h', e, hb, h3.trans s⟩

/-- Script.cpp:438-454. -/
theorem pushData_ok {h : Heap} (w : h.Wf) {v : Script} {p : Nat} (a : At h p v.arr) (hf : v.Fits) (data : Bytes) :
    ∃ v' p' r h' E, (of v p).pushData data h = .ok (of v' p', r, h') ∧ At h' p' v'.arr ∧ v'.Fits ∧
      Moves h h' p p' E ∧ ((v.scriptLen = 0 → p = 0) → E = ∅) ∧ (h.Generous → (v', r) = v.pushData data) ∧
      (data ≠ [] → v'.scriptLen = 0 → p' = 0 ∨ p' = p ∧ v.scriptLen = 0) := by
  obtain ⟨hv, hv64⟩ := hf
  by_cases hm : v.scriptLen + data.length > Script.maxScriptSize
  · obtain ⟨p', h', e, a', s, hp0, hpp⟩ := clear_ok w a hv
    refine ⟨v.clear, p', 0, h', ∅, ?_, a', ?_, .ofStep s, fun _ => rfl, fun _ => ?_, fun _ _ => ?_⟩
    · unfold pushData
      rw [if_pos (show (of v p).scriptLen + _ > _ from hm), e, C.bind_ok]
      rfl
    · unfold Script.clear
      split
      · exact ⟨Nat.le_refl 0, by simp⟩
      · exact ⟨hv, hv64⟩
    · rw [Script.pushData, if_pos hm]
    · by_cases hs : 0 < v.scriptLen
      · exact Or.inl (hp0 hs)
      · exact Or.inr ⟨(hpp (by omega)).1, by omega⟩
  · have e1 : (of v p).pushData data h = if v.scriptLen = 0 then (do
          let (p, h) := h.calloc data.length
          if p = 0 then return ({ of v p with ptr := p, scriptLen := 0 }, 0, h)
          else
            let h ← h.write p 0 data
            return ({ of v p with ptr := p, scriptLen := data.length }, data.length, h)) else (do
          let (p', h) ← h.realloc p (v.scriptLen + data.length)
          if p' = 0 then
            let h ← h.free p
            return ({ of v p with ptr := 0, scriptLen := 0 }, 0, h)
          else
            let h ← h.write p' v.scriptLen data
            return ({ of v p with ptr := p', scriptLen := v.scriptLen + data.length }, v.scriptLen + data.length, h)) := by
      unfold pushData
      rw [if_neg (show ¬ (of v p).scriptLen + _ > _ from hm)]
      rfl
    have ev : v.pushData data = ({ v with scriptLen := v.scriptLen + data.length, arr := v.arr.take v.scriptLen ++ data }, v.scriptLen + data.length) := by
      rw [Script.pushData, if_neg hm]
    rw [e1]
    by_cases h0 : v.scriptLen = 0
    · rw [if_pos h0]
      rcases calloc_fill w data with ⟨hp, s, hd⟩ | ⟨hp, hd, h', ew, hb, s⟩
      · refine ⟨{ v with scriptLen := 0, arr := [] }, 0, 0, (h.calloc data.length).2, own p, ?_, at_null _, ⟨Nat.le_refl 0, by simp⟩, Moves.drop w a (by simpa using s), ?_, ?_, fun _ _ => Or.inl rfl⟩
        · dsimp only
          rw [if_pos hp, hp]
          rfl
        · intro t; rw [t h0]; rfl
        · intro g
          by_cases hl : data.length = 0
          · rw [ev, h0, hl, List.length_eq_zero_iff.1 hl]
            rfl
          · have := (g h.next data.length (by omega)).1 hd
            simp only [Script.maxScriptSize] at hm
            omega
      · refine ⟨{ v with scriptLen := data.length, arr := data }, (h.calloc data.length).1, data.length, h', own p, ?_, Or.inr hb, ⟨Nat.le_refl _, by simp only [Script.maxScriptSize] at hm; simp; omega⟩, Moves.drop w a s, ?_, ?_, ?_⟩
        · dsimp only
          rw [if_neg hp, ew, C.bind_ok]
          rfl
        · intro t; rw [t h0]; rfl
        · intro _
          rw [ev, h0]
          simp
        · intro hne hl
          exact absurd (List.length_eq_zero_iff.1 hl) hne
    · rw [if_neg h0]
      have hb := a.block (by rintro e; simp [e] at hv; omega)
      cases hd : h.denies h.next (v.scriptLen + data.length) with
      | true =>
        obtain ⟨h1, er, hb1, s1⟩ := realloc_denied w hb hd
        obtain ⟨h2, ef, s2⟩ := free_ok s1.wf (Or.inr ⟨_, hb1⟩)
        refine ⟨{ v with scriptLen := 0, arr := [] }, 0, 0, h2, ∅, ?_, at_null _, ⟨Nat.le_refl 0, by simp⟩, .ofStep (s1.trans s2), fun _ => rfl, ?_, fun _ _ => Or.inl rfl⟩
        · rw [er, C.bind_ok]
          dsimp only
          rw [if_pos rfl, ef, C.bind_ok]
          rfl
        · intro g
          have := (g _ _ (by omega)).1 hd
          simp only [Script.maxScriptSize] at hm
          omega
      | false =>
        obtain ⟨p', h1, er, hp', hb1, s1⟩ := realloc_granted w hb hd
        have hw : writeAt (v.arr.take (v.scriptLen + data.length) ++ zeros (v.scriptLen + data.length - v.arr.length)) v.scriptLen data =
            some (v.arr.take v.scriptLen ++ data) := by
          have hsplit : v.arr.take (v.scriptLen + data.length) ++ zeros (v.scriptLen + data.length - v.arr.length) =
              v.arr.take v.scriptLen ++ ((v.arr.drop v.scriptLen).take data.length ++ zeros (v.scriptLen + data.length - v.arr.length)) := by
            rw [List.take_add, List.append_assoc]
          have hl : (v.arr.take v.scriptLen).length = v.scriptLen := by simp [hv]
          rw [hsplit]
          have := writeAt_end (v.arr.take v.scriptLen) data
            ((v.arr.drop v.scriptLen).take data.length ++ zeros (v.scriptLen + data.length - v.arr.length))
            (by simp only [List.length_append, List.length_take, List.length_drop, zeros, List.length_replicate]; omega)
          rw [hl] at this
          exact this
        obtain ⟨h2, ew, hb2, -, s2⟩ := write_ok s1.wf hb1 hw
        refine ⟨{ v with scriptLen := v.scriptLen + data.length, arr := v.arr.take v.scriptLen ++ data }, p', v.scriptLen + data.length, h2, ∅, ?_,
          Or.inr hb2, ?_, .ofStep (s1.trans s2), fun _ => rfl, fun _ => ev.symm, ?_⟩
        · rw [er, C.bind_ok]
          dsimp only
          rw [if_neg hp', ew, C.bind_ok]
          rfl
        · refine ⟨by simp [hv], ?_⟩
          simp only [Script.maxScriptSize] at hm
          simp
          omega
        · intro _ e
          simp at e
          omega

/-- Script.cpp:420-437: pushing one byte is pushing an array of one byte. -/
theorem pushByte_eq (sc : HScript) (code : UInt8) (h : Heap) : sc.pushByte code h = sc.pushData [code] h := by
  unfold pushByte pushData
  simp

/-- Script.cpp:487-492, 497-502. -/
theorem take_ok {h : Heap} (w : h.Wf) {v vo : Script} {p po : Nat} (a : At h p v.arr) (ao : At h po vo.arr) (hv : v.Fits) (ho : vo.Fits) :
    ∃ v' p' h' E, (of v p).take (of vo po) h = .ok (of v' p', h') ∧ At h' p' v'.arr ∧ v'.Fits ∧ Moves h h' p p' E ∧
      (p = 0 ∨ vo.scriptLen = 0 → E = ∅) ∧
      (h.Generous → vo.scriptLen < 2 ^ 63 →
        v' = if vo.scriptLen > 0 then { v with scriptLen := vo.scriptLen, arr := vo.bytes } else v) ∧
      (v'.scriptLen = 0 → p' = 0 ∨ p' = p ∧ v' = v) := by
  obtain ⟨ho1, ho2⟩ := ho
  by_cases h0 : vo.scriptLen > 0
  · have hb := ao.block (by rintro e; simp [e] at ho1; omega)
    have hlen : vo.bytes.length = vo.scriptLen := by simp [Script.bytes, ho1]
    have et : (of v p).take (of vo po) h = (do
        let (p, h) := h.calloc vo.bytes.length
        if p = 0 then return (of { v with scriptLen := 0, arr := [] } p, h)
        else
          let bs ← h.read po 0 vo.scriptLen
          let h ← h.write p 0 bs
          return (of { v with scriptLen := vo.scriptLen, arr := bs } p, h)) := by
      unfold take
      rw [if_pos (show (of vo po).scriptLen > 0 from h0), hlen]
      rfl
    rw [et]
    rcases calloc_fill w vo.bytes with ⟨hp, s, hd⟩ | ⟨hp, hd, h', ew, hb', s⟩
    · refine ⟨{ v with scriptLen := 0, arr := [] }, 0, (h.calloc vo.bytes.length).2, own p, ?_, at_null _, ⟨Nat.le_refl 0, by simp⟩,
        Moves.drop w a (by simpa using s), ?_, ?_, fun _ => Or.inl rfl⟩
      · dsimp only
        rw [if_pos hp, hp]
        rfl
      · rintro (e | e)
        · rw [e]; rfl
        · omega
      · intro g hlt
        exact absurd ((g _ _ (by omega)).1 hd) (by omega)
    · have hk : (h.calloc vo.bytes.length).2.blocks po = some vo.arr := by
        obtain ⟨-, -, s0⟩ := calloc_granted w hd
        exact s0.keep w (by simp) hb
      refine ⟨{ v with scriptLen := vo.scriptLen, arr := vo.bytes }, (h.calloc vo.bytes.length).1, h', own p, ?_, Or.inr hb', ⟨le_of_eq hlen.symm, ho2⟩,
        Moves.drop w a s, ?_, ?_, ?_⟩
      · dsimp only
        rw [if_neg hp, read_all hk ho1, C.bind_ok]
        show (do let h ← Heap.write _ _ 0 vo.bytes; _) = _
        rw [ew, C.bind_ok]
        rfl
      · rintro (e | e)
        · rw [e]; rfl
        · omega
      · intro _ _
        rw [if_pos h0]
      · intro e
        simp only at e
        omega
  · refine ⟨v, p, h, ∅, ?_, a, hv, Moves.refl w a, fun _ => rfl, fun _ _ => by rw [if_neg h0], fun _ => Or.inr ⟨rfl, rfl⟩⟩
    unfold take
    rw [if_neg (show ¬ (of vo po).scriptLen > 0 from h0)]
    rfl

/-- Script.cpp:495-503. -/
theorem copy_ok {h : Heap} (w : h.Wf) {vo : Script} {po : Nat} (ao : At h po vo.arr) (ho : vo.Fits) :
    ∃ v' p' h', (of vo po).copy h = .ok (of v' p', h') ∧ At h' p' v'.arr ∧ v'.Fits ∧ Step h h' ∅ (own p') ∧
      (h.Generous → vo.scriptLen < 2 ^ 63 → v' = vo.copy) ∧ (v'.scriptLen = 0 → p' = 0) := by
  obtain ⟨v', p', h', E, e, a', hf, m, ht, hg, hp⟩ := take_ok w (v := {}) (p := 0) (at_null h) ao ⟨Nat.le_refl 0, by simp⟩ ho
  refine ⟨v', p', h', e, a', hf, ?_, ?_, ?_⟩
  · have := m.1
    rw [ht (Or.inl rfl)] at this
    simpa using this
  · intro g hl
    rw [hg g hl]
    rfl
  · intro e
    rcases hp e with e | e
    · exact e
    · exact e.1

/-- Script.cpp:483-494. -/
theorem assign_ok {h : Heap} (w : h.Wf) {v vo : Script} {p po : Nat} (a : At h p v.arr) (ao : At h po vo.arr) (hv : v.Fits) (ho : vo.Fits)
    (hd : ∀ q ∈ own po, q ∉ own p) :
    ∃ v' p' h' E, (of v p).assign (of vo po) h = .ok (of v' p', h') ∧ At h' p' v'.arr ∧ v'.Fits ∧ Moves h h' p p' E ∧
      ((v.scriptLen = 0 → p = 0) → E = ∅) ∧ (h.Generous → vo.scriptLen < 2 ^ 63 → v' = v.assign vo) ∧
      ((v.scriptLen = 0 → p = 0) → v'.scriptLen = 0 → p' = 0) := by
  obtain ⟨p1, h1, e1, a1, s1, hp0, hpp⟩ := clear_ok w (v := { v with status := .done, bytesParsed := 0 }) a hv.1
  have hf1 : ({ v with status := .done, bytesParsed := 0 } : Script).clear.Fits := by
    unfold Script.clear
    split
    · exact ⟨Nat.le_refl 0, by simp⟩
    · exact hv
  obtain ⟨v', p', h', E, e, a', hf, m, ht, hg, hp⟩ := take_ok s1.wf a1 (ao.keep s1 w hd) hf1 ho
  have tidy : (v.scriptLen = 0 → p = 0) → p1 = 0 := by
    intro t
    by_cases hs : 0 < v.scriptLen
    · exact hp0 hs
    · have h0 : v.scriptLen = 0 := by omega
      rw [(hpp h0).1]
      exact t h0
  refine ⟨v', p', h', E, ?_, a', hf, ?_, fun t => ht (Or.inl (tidy t)), ?_, ?_⟩
  · unfold assign
    show (do let (self, h) ← HScript.clear (of { v with status := .done, bytesParsed := 0 } p) h; self.take (of vo po) h) = _
    rw [e1, C.bind_ok]
    exact e
  · have := (Moves.ofStep s1).trans m
    rwa [Finset.empty_union] at this
  · intro g hl
    rw [hg (s1.generous g) hl]
    rfl
  · intro t e
    rcases hp e with e | e
    · exact e
    · rw [e.1]; exact tidy t

end HScript
end UB
