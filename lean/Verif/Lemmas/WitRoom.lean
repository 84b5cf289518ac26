import Verif.Lemmas.TxResume
import Verif.Lemmas.HeapWitness
import Verif.Lemmas.HeapParse

/-! Whatever the bytes, parsing makes no witness of a size near the limits of the machine: at most 252 items of less than 2^32 bytes. -/

namespace UB

theorem lenLoop_shift : ∀ {fuel len pos : Nat} {s : PStream} {len' pos' : Nat} {s' : PStream}, lenLoop fuel len pos s = some (len', pos', s') →
    pos' = pos ∨ pos' ≤ 5 := by
  intro fuel
  induction fuel with
  | zero =>
    intro len pos s len' pos' s' h
    simp only [lenLoop, Option.some.injEq, Prod.mk.injEq] at h
    exact Or.inl h.2.1.symm
  | succ fuel ih =>
    intro len pos s len' pos' s' h
    rw [lenLoop] at h
    split at h
    · split at h
      · cases h
      · split at h
        · cases h
        · split at h
          · cases h
          · rename_i v hv
            have h5 : pos + 1 ≤ 5 := by
              by_contra hc
              rw [intShl, if_pos (by omega)] at hv
              cases hv
            rcases ih h with h' | h'
            · exact Or.inr (by omega)
            · exact Or.inr h'
    · simp only [Option.some.injEq, Prod.mk.injEq] at h
      exact Or.inl h.2.1.symm

theorem lenVarIntN_small {n : Nat} (h : n < 2 ^ 64) (hl : lenVarIntN n ≠ 9) : n < 2 ^ 32 := by
  unfold lenVarIntN lenVarInt at hl
  by_contra hc
  apply hl
  have e : (UInt64.ofNat n).toNat = n := by rw [UInt64.toNat_ofNat']; omega
  have k1 : ¬ UInt64.ofNat n < 0xfd := by rw [UInt64.lt_iff_toNat_lt, e]; simp; omega
  have k2 : ¬ (UInt64.ofNat n >>> 16 == 0) = true := by
    rw [beq_iff_eq, ← UInt64.toNat_inj, UInt64.toNat_shiftRight, e]
    simp [Nat.shiftRight_eq_div_pow]
    omega
  have k3 : ¬ (UInt64.ofNat n >>> 32 == 0) = true := by
    rw [beq_iff_eq, ← UInt64.toNat_inj, UInt64.toNat_shiftRight, e]
    simp [Nat.shiftRight_eq_div_pow]
    omega
  simp [k1, k2, k3]

theorem lenVarIntN_le (n : Nat) : lenVarIntN n ≤ 9 := by
  unfold lenVarIntN lenVarInt
  split_ifs <;> simp

namespace Witness

/-- The sizes of a witness that is being parsed. -/
structure Room (w : Witness) : Prop where
  elem : w.curElementLen < 2 ^ 64
  num : w.numElements ≤ 252
  cur : w.curElement ≤ w.numElements
  size : w.arr.length ≤ 2 ^ 33 * (w.curElement + 1)
  before : w.curBytesParsed = 0 ∨ w.curBytesParsed < w.curLen → w.arr.length ≤ 2 ^ 33 * w.curElement

theorem Room.small {w : Witness} (r : w.Room) : w.arr.length < 2 ^ 62 := by
  have h1 := r.num
  have h2 := r.cur
  have h3 := r.size
  omega

theorem Room.new : ({} : Witness).Room := ⟨by decide, by decide, by decide, by decide, fun _ => by decide⟩

theorem elemAlloc_room {w w' : Witness} {cr off : Nat} (h : w.elemAlloc cr off = some w') :
    w' = { w with arr := w'.arr } ∧ (w'.arr.length = w.arr.length ∨
      (w.curBytesParsed + cr = w.curLen ∧ cr > 0 ∧ w'.arr.length ≤ w.arr.length + w.curElementLen + lenVarIntN w.curElementLen)) := by
  unfold elemAlloc at h
  split at h
  · rename_i hc
    dsimp only at h
    split at h
    · cases h
    · split at h
      · rename_i e
        split at h
        · cases h
        · rename_i arr e2
          injection h with h
          have := HWitness.writeAt_len e2
          rw [← h]
          refine ⟨rfl, Or.inr ⟨hc.1, hc.2, ?_⟩⟩
          simp only [zeros, List.length_replicate] at this
          simp only
          omega
      · split at h
        · cases h
        · rename_i arr e2
          injection h with h
          have := HWitness.writeAt_len e2
          rw [← h]
          refine ⟨rfl, Or.inr ⟨hc.1, hc.2, ?_⟩⟩
          simp only [zeros, List.length_append, List.length_replicate] at this
          simp only
          omega
  · injection h with h
    rw [h]
    exact ⟨rfl, Or.inl rfl⟩

/-- The length prefix of an item. -/
theorem elemLen_room {w w' : Witness} {cr : Nat} {s s' : PStream} (r : w.Room) (ha : s.avail = true) (h : w.elemLen s = some (w', cr, s')) :
    w'.curElementLen < 2 ^ 64 ∧ w'.numElements = w.numElements ∧ w'.curElement = w.curElement ∧ w'.arr = w.arr ∧ w'.curBytesParsed = w.curBytesParsed ∧
      w'.bytesParsed = w.bytesParsed ∧
      (0 < cr → w.curBytesParsed = 0 ∨ w.curBytesParsed < w.curLen) ∧ (0 < cr → w.curBytesParsed + cr ≤ 5) ∧ (w.curBytesParsed ≠ 0 → w'.curLen = w.curLen) ∧
      (w.curBytesParsed = 0 → 0 < cr) := by
  unfold elemLen at h
  by_cases h0 : w.curBytesParsed = 0
  · rw [if_pos ⟨ha, h0⟩] at h
    generalize s.readByte = z at h
    obtain ⟨b, s1⟩ := z
    dsimp only at h
    by_cases hb : b < 0xfd
    · rw [if_pos hb] at h
      dsimp only at h
      cases hl : lenLoop (1 - (w.curBytesParsed + 1)) b.toNat (w.curBytesParsed + 1) s1 with
      | none => rw [hl] at h; cases h
      | some z =>
        obtain ⟨len, pos, s2⟩ := z
        rw [hl] at h
        dsimp only at h
        injection h with h
        injection h with e1 e2
        injection e2 with e2 e3
        have f := lenLoop_facts _ _ _ _ _ _ _ hl (by have := b.toNat_lt; omega)
        have sh := lenLoop_shift hl
        subst e1 e2
        exact ⟨f.2.2.1, rfl, rfl, rfl, rfl, rfl, fun _ => Or.inl h0, fun _ => by omega, fun c => absurd h0 c, fun _ => by omega⟩
    · rw [if_neg hb] at h
      dsimp only at h
      cases hl : lenLoop (1 + 2 ^ (b.toNat - 0xfc) - (w.curBytesParsed + 1)) 0 (w.curBytesParsed + 1) s1 with
      | none => rw [hl] at h; cases h
      | some z =>
        obtain ⟨len, pos, s2⟩ := z
        rw [hl] at h
        dsimp only at h
        injection h with h
        injection h with e1 e2
        injection e2 with e2 e3
        have f := lenLoop_facts _ _ _ _ _ _ _ hl (by decide)
        have sh := lenLoop_shift hl
        subst e1 e2
        exact ⟨f.2.2.1, rfl, rfl, rfl, rfl, rfl, fun _ => Or.inl h0, fun _ => by omega, fun c => absurd h0 c, fun _ => by omega⟩
  · rw [if_neg (fun c => h0 c.2)] at h
    dsimp only at h
    cases hl : lenLoop (w.curLen - (w.curBytesParsed + 0)) w.curElementLen (w.curBytesParsed + 0) s with
    | none => rw [hl] at h; cases h
    | some z =>
      obtain ⟨len, pos, s2⟩ := z
      rw [hl] at h
      dsimp only at h
      injection h with h
      injection h with e1 e2
      injection e2 with e2 e3
      have f := lenLoop_facts _ _ _ _ _ _ _ hl r.elem
      have sh := lenLoop_shift hl
      subst e1 e2
      refine ⟨f.2.2.1, rfl, rfl, rfl, rfl, rfl, fun c => Or.inr (by omega), fun _ => by omega, fun _ => rfl, fun c => absurd c h0⟩

theorem round_room {w : Witness} {pos : Nat} {s : PStream} (r : w.Room) (ha : s.avail = true) (hc : w.curElement < w.numElements) :
    match w.round pos s with
    | .next w' _ _ => w'.Room
    | .fail w' _ _ => w'.Room
    | .ub _ => True := by
  unfold round
  dsimp only
  cases he : w.elemLen s with
  | none => trivial
  | some z =>
    obtain ⟨w1, cr, s1⟩ := z
    obtain ⟨q1, q2, q3, q4, q5, -, q7, q8, q9, q10⟩ := elemLen_room r ha he
    dsimp only
    have rs := r.size
    have rb := r.before
    have rn := r.num
    by_cases hf : lenVarIntN w1.curElementLen ≠ w1.curLen ∧ w1.curBytesParsed + cr = w1.curLen
    · rw [if_pos hf]
      refine ⟨q1, by simp only [q2]; exact rn, by simp only [q2, q3]; omega, by simp only [q3, q4]; exact rs, fun c => ?_⟩
      simp only [q3, q4] at c ⊢
      rcases Nat.eq_zero_or_pos cr with h0 | h0
      · by_cases hz : w.curBytesParsed = 0
        · exact absurd (q10 hz) (by omega)
        · rw [q9 hz] at hf
          omega
      · exact rb (q7 h0)
    rw [if_neg hf]
    cases ea : w1.elemAlloc cr (pos - lenVarIntN w.numElements - w.curBytesParsed) with
    | none => trivial
    | some w2 =>
      obtain ⟨e2, sz⟩ := elemAlloc_room ea
      dsimp only
      generalize s1.readN (w2.curElementLen + lenVarIntN w2.curElementLen - (w2.curBytesParsed + cr)) = z
      obtain ⟨bs, s2⟩ := z
      dsimp only
      cases ew : writeAt w2.arr (pos - lenVarIntN w.numElements - w.curBytesParsed + w2.curBytesParsed + cr) bs with
      | none => trivial
      | some arr =>
        have lw := HWitness.writeAt_len ew
        dsimp only
        have f1 : w2.curElementLen = w1.curElementLen := by rw [e2]
        have f2 : w2.curElement = w1.curElement := by rw [e2]
        have f3 : w2.numElements = w1.numElements := by rw [e2]
        have f4 : w2.curBytesParsed = w1.curBytesParsed := by rw [e2]
        have f5 : w2.curLen = w1.curLen := by rw [e2]
        -- the size after the allocation
        have big : arr.length ≤ 2 ^ 33 * (w.curElement + 1) := by
          rcases sz with sz | ⟨z1, z2, z3⟩
          · rw [lw, sz, q4]; exact rs
          · have hl : lenVarIntN w1.curElementLen = w1.curLen := by
              by_contra hne
              exact hf ⟨hne, z1⟩
            have h5 := q8 z2
            have hsm := lenVarIntN_small q1 (by omega)
            have := rb (q7 z2)
            have := lenVarIntN_le w1.curElementLen
            rw [q4] at z3
            omega
        have same : (w.curBytesParsed + cr < w1.curLen ∨ w.curBytesParsed + cr = 0) → arr.length ≤ 2 ^ 33 * w.curElement := by
          intro c
          have hs : arr.length = w.arr.length := by
            rcases sz with sz | ⟨z1, z2, z3⟩
            · rw [lw, sz, q4]
            · exfalso; omega
          rw [hs]
          rcases Nat.eq_zero_or_pos cr with h0 | h0
          · by_cases hz : w.curBytesParsed = 0
            · exact absurd (q10 hz) (by omega)
            · refine rb ?_
              rw [q9 hz] at c
              omega
          · exact rb (q7 h0)
        by_cases ht : w2.curBytesParsed + (cr + bs.length) = w2.curElementLen + lenVarIntN w2.curElementLen
        · rw [if_pos ht]
          refine ⟨by simp, by simp only [f3, q2]; exact rn, by simp only [f2, f3, q2, q3]; omega, ?_, fun _ => ?_⟩
          · simp only [f2, q3]
            exact Nat.le_trans big (by omega)
          · simp only [f2, q3]
            exact big
        · rw [if_neg ht]
          refine ⟨by simp only [f1]; exact q1, by simp only [f3, q2]; exact rn, by simp only [f2, f3, q2, q3]; omega, by simp only [f2, q3]; exact big, fun c => ?_⟩
          simp only [f2, f4, f5, q3, q5] at c ⊢
          refine same ?_
          omega

theorem loop_room : ∀ (fuel : Nat) {w : Witness} {br : Nat} {s : PStream}, w.Room → (loop fuel w br s).1.Room := by
  intro fuel
  induction fuel with
  | zero => intro w br s r; exact ⟨r.elem, r.num, r.cur, r.size, r.before⟩
  | succ fuel ih =>
    intro w br s r
    rw [loop]
    by_cases hc : s.avail = true ∧ w.curElement < w.numElements
    · rw [if_pos hc]
      have := round_room (pos := w.bytesParsed + br) r hc.1 hc.2
      cases h : w.round (w.bytesParsed + br) s with
      | ub s' => exact ⟨r.elem, r.num, r.cur, r.size, r.before⟩
      | fail w' cr s' =>
        rw [h] at this
        have r' : w'.Room := this
        exact ⟨r'.elem, r'.num, r'.cur, r'.size, r'.before⟩
      | next w' cr s' =>
        rw [h] at this
        exact ih this
    · rw [if_neg hc]
      exact ⟨r.elem, r.num, r.cur, r.size, r.before⟩

theorem elemLen_bytes {w w' : Witness} {cr : Nat} {s s' : PStream} (h : w.elemLen s = some (w', cr, s')) : w'.bytesParsed = w.bytesParsed := by
  unfold elemLen at h
  dsimp only at h
  split at h
  · cases h
  · injection h with h
    injection h with e1 e2
    rw [← e1]
    split
    · split <;> rfl
    · rfl

theorem round_bytes {w : Witness} {pos : Nat} {s : PStream} :
    match w.round pos s with
    | .next w' _ _ => w'.bytesParsed = w.bytesParsed
    | .fail w' _ _ => w'.bytesParsed = w.bytesParsed
    | .ub _ => True := by
  unfold round
  dsimp only
  cases he : w.elemLen s with
  | none => trivial
  | some z =>
    obtain ⟨w1, cr, s1⟩ := z
    have e1 := elemLen_bytes he
    dsimp only
    by_cases hf : lenVarIntN w1.curElementLen ≠ w1.curLen ∧ w1.curBytesParsed + cr = w1.curLen
    · rw [if_pos hf]; exact e1
    rw [if_neg hf]
    cases ea : w1.elemAlloc cr (pos - lenVarIntN w.numElements - w.curBytesParsed) with
    | none => trivial
    | some w2 =>
      obtain ⟨e2, -⟩ := elemAlloc_room ea
      dsimp only
      generalize s1.readN (w2.curElementLen + lenVarIntN w2.curElementLen - (w2.curBytesParsed + cr)) = z
      obtain ⟨bs, s2⟩ := z
      dsimp only
      have e3 : w2.bytesParsed = w.bytesParsed := by rw [e2]; exact e1
      cases ew : writeAt w2.arr (pos - lenVarIntN w.numElements - w.curBytesParsed + w2.curBytesParsed + cr) bs with
      | none => trivial
      | some arr =>
        dsimp only
        by_cases ht : w2.curBytesParsed + (cr + bs.length) = w2.curElementLen + lenVarIntN w2.curElementLen
        · rw [if_pos ht]; exact e3
        · rw [if_neg ht]; exact e3

theorem loop_bytes : ∀ (fuel : Nat) {w : Witness} {br : Nat} {s : PStream}, (loop fuel w br s).1.status = .ub ∨ w.bytesParsed + br ≤ (loop fuel w br s).1.bytesParsed := by
  intro fuel
  induction fuel with
  | zero => intro w br s; exact Or.inr (Nat.le_refl _)
  | succ fuel ih =>
    intro w br s
    rw [loop]
    by_cases hc : s.avail = true ∧ w.curElement < w.numElements
    · rw [if_pos hc]
      have := round_bytes (w := w) (pos := w.bytesParsed + br) (s := s)
      cases h : w.round (w.bytesParsed + br) s with
      | ub s' => exact Or.inl rfl
      | fail w' cr s' =>
        rw [h] at this
        have r' : w'.bytesParsed = w.bytesParsed := this
        right
        dsimp only
        omega
      | next w' cr s' =>
        rw [h] at this
        have r' : w'.bytesParsed = w.bytesParsed := this
        rcases ih (w := w') (br := br + cr) (s := s') with h | h
        · exact Or.inl h
        · right
          dsimp only
          omega
    · rw [if_neg hc]
      exact Or.inr (Nat.le_refl _)

/-- The sizes of a witness, whatever has been parsed into it. -/
def Roomy (w : Witness) : Prop := w.Room ∧ (w.status = .incomplete → w.bytesParsed = 0 → w.curElement = 0)

theorem body_roomy {w : Witness} {br : Nat} {s : PStream} (r : w.Room) (h : 0 < w.bytesParsed + br ∨ (s.avail = false ∧ w.curElement = 0)) :
    (fromStream.body w br s).1.Roomy := by
  unfold fromStream.body
  split
  · exact ⟨⟨r.elem, r.num, r.cur, r.size, r.before⟩, fun c => by cases c⟩
  · refine ⟨loop_room _ r, fun c1 c2 => ?_⟩
    rcases h with h | ⟨ha, h0⟩
    · rcases loop_bytes (w.numElements - w.curElement) (w := w) (br := br) (s := s) with h' | h'
      · rw [h'] at c1; cases c1
      · omega
    · cases hf : w.numElements - w.curElement with
      | zero => exact h0
      | succ n =>
        rw [loop, if_neg (by simp [ha])]
        exact h0

theorem fromStream_roomy {w : Witness} (s : PStream) (r : w.status = .done ∨ w.Roomy) : (w.fromStream s).1.Roomy := by
  unfold fromStream
  by_cases hst : w.status = .failed ∨ w.status = .ub
  · rw [if_pos hst]
    rcases r with r | r
    · rw [r] at hst; simp at hst
    · exact r
  rw [if_neg hst]
  dsimp only
  have r0 : w.start.Room ∧ (w.start.bytesParsed = 0 → w.start.curElement = 0) := by
    by_cases hd : w.status = .done
    · unfold start
      rw [if_pos hd]
      exact ⟨⟨by simp [reset, clear], by simp [reset, clear], by simp [reset, clear], by simp [reset, clear], fun _ => by simp [reset, clear]⟩, fun _ => rfl⟩
    · have r := r.resolve_left hd
      have hi : w.status = .incomplete := by
        cases hw : w.status <;> simp_all
      unfold start
      rw [if_neg hd]
      exact ⟨⟨r.1.elem, r.1.num, r.1.cur, r.1.size, r.1.before⟩, r.2 hi⟩
  generalize w.start = x at *
  obtain ⟨r, hz⟩ := r0
  by_cases hc : s.avail = true ∧ x.bytesParsed = 0
  · rw [if_pos hc]
    have z := hz hc.2
    generalize s.readByte = b
    obtain ⟨b, s1⟩ := b
    dsimp only
    by_cases hb : b < 0xfd
    · rw [if_pos hb]
      refine body_roomy ⟨r.elem, ?_, by simp only [z]; omega, r.size, r.before⟩ (Or.inl (by omega))
      have : b.toNat < 0xfd := by simpa [UInt8.lt_iff_toNat_lt] using hb
      simp only
      omega
    · rw [if_neg hb]
      exact ⟨⟨r.elem, by simp, by simp only [z]; omega, r.size, r.before⟩, fun c => by cases c⟩
  · rw [if_neg hc]
    refine body_roomy r ?_
    by_cases h0 : x.bytesParsed = 0
    · refine Or.inr ⟨?_, hz h0⟩
      cases ha : s.avail with
      | false => rfl
      | true => exact absurd ⟨ha, h0⟩ hc
    · exact Or.inl (by omega)

end Witness

namespace Tx

/-- All witnesses. -/
def Roomy (v : Tx) : Prop := ∀ i ∈ v.txIns, i.witness.Roomy

theorem readLock_ins (v : Tx) (br : Nat) (s : PStream) : (v.readLock br s).1.txIns = v.txIns := by
  unfold readLock
  dsimp only
  split <;> rfl

theorem readWitnesses_roomy {v : Tx} {br : Nat} {s : PStream} (h : v.Roomy) : (v.readWitnesses br s).1.Roomy := by
  have step : ∀ (x : TxIn) s, x.witness.Roomy → (parseWitness x s).1.witness.Roomy := fun x s h => Witness.fromStream_roomy s (Or.inr h)
  unfold readWitnesses
  split
  · have h1 : ∀ i ∈ (if br + v.bytesParsed = v.witOffset then parseAll parseWitness v.txIns s else (v.txIns, 0, s)).1, i.witness.Roomy := by
      split
      · exact parseAll_each (Q := fun i : TxIn => i.witness.Roomy) (R := fun i : TxIn => i.witness.Roomy) step _ _ h
      · exact h
    generalize (if br + v.bytesParsed = v.witOffset then parseAll parseWitness v.txIns s else (v.txIns, 0, s)) = z at *
    obtain ⟨ins, n, s1⟩ := z
    dsimp only at h1 ⊢
    have h2 := contLoop_each (f := parseWitness) (st := fun i => i.witness.status) (R := fun i => i.witness.Roomy) step ins s1 h1
    unfold contAll
    generalize contLoop parseWitness (fun i => i.witness.status) ins s1 = z at *
    obtain ⟨ins2, m, s2, good⟩ := z
    dsimp only at h2 ⊢
    split
    · exact h2
    · intro i hi
      rw [readLock_ins] at hi
      exact h2 i hi
  · intro i hi
    rw [readLock_ins] at hi
    exact h i hi

theorem readOuts_roomy {v : Tx} {br : Nat} {s : PStream} (h : v.Roomy) : (v.readOuts br s).1.Roomy := by
  unfold readOuts
  have h1 : (v.readOutCount br s).1.Roomy := by
    unfold readOutCount
    split <;> exact h
  generalize v.readOutCount br s = z at *
  obtain ⟨v1, br1, s1⟩ := z
  dsimp only at h1 ⊢
  generalize contAll TxOut.fromStream (fun i => i.status) v1.txOuts s1 = z at *
  obtain ⟨outs, m, s2, r⟩ := z
  dsimp only
  cases r with
  | some st => exact h1
  | none => exact readWitnesses_roomy (v := { v1 with txOuts := outs }) h1

theorem fromStream_witness' (x : TxIn) (s : PStream) : (x.fromStream s).1.witness = x.witness := by
  unfold TxIn.fromStream
  split
  · rfl
  · have h1 : (x.start.readHead s).1.witness = x.witness := by
      show x.start.witness = x.witness
      unfold TxIn.start
      dsimp only
      split <;> rfl
    dsimp only
    generalize x.start.readHead s = z at *
    obtain ⟨t, br, s1⟩ := z
    dsimp only at h1 ⊢
    have h2 : (t.readScript br s1).1.witness = x.witness := h1
    generalize t.readScript br s1 = z at *
    obtain ⟨t2, br2, s2⟩ := z
    dsimp only at h2 ⊢
    unfold TxIn.readTail
    split
    · exact h2
    · split
      · exact h2
      · dsimp only
        split <;> exact h2

theorem readIns_roomy {v : Tx} {br : Nat} {s : PStream} (h : v.Roomy) : (v.readIns br s).1.Roomy := by
  unfold readIns
  have h2 := contLoop_each (f := TxIn.fromStream) (st := fun i => i.status) (R := fun i => i.witness.Roomy) (fun x s h => by rw [fromStream_witness']; exact h) v.txIns s h
  unfold contAll
  generalize contLoop TxIn.fromStream (fun i => i.status) v.txIns s = z at *
  obtain ⟨ins, m, s2, good⟩ := z
  dsimp only at h2 ⊢
  split
  · exact h2
  · exact readOuts_roomy (v := { v with txIns := ins }) h2

theorem new_roomy (n : Nat) (s : PStream) : ∀ i ∈ (parseAll TxIn.fromStream (List.replicate n {}) s).1, i.witness.Roomy :=
  parseAll_each (Q := fun i : TxIn => i.witness.Roomy) (fun x s h => by rw [fromStream_witness']; exact h) _ _ fun i hi => by
    rw [List.eq_of_mem_replicate hi]
    exact ⟨Witness.Room.new, fun c => by cases c⟩

/-- Whatever the bytes and the pieces. -/
theorem fromStream_roomy (v : Tx) (s : PStream) (h : v.status = .done ∨ v.Roomy) : (v.fromStream s).1.Roomy := by
  unfold fromStream
  by_cases hst : v.status = .failed ∨ v.status = .ub
  · rw [if_pos hst]
    rcases h with h | h
    · rw [h] at hst; simp at hst
    · exact h
  rw [if_neg hst]
  have h0 : v.start.Roomy := by
    by_cases hd : v.status = .done
    · unfold start
      rw [if_pos hd]
      intro i hi
      simp at hi
    · unfold start
      rw [if_neg hd]
      exact h.resolve_left hd
  generalize v.start = v0 at *
  have h1 : (v0.readVersion s).1.Roomy := by
    unfold readVersion
    dsimp only
    split
    · split
      · exact h0
      · exact new_roomy _ _
    · exact h0
  generalize v0.readVersion s = z at *
  obtain ⟨v1, br1, s1⟩ := z
  dsimp only at h1 ⊢
  generalize v1.readFlag br1 s1 = z at *
  obtain ⟨good, br2, s2⟩ := z
  dsimp only
  cases good with
  | false => exact h1
  | true =>
    rw [if_pos rfl]
    have h2 : (v1.readSegwitCount br2 s2).1.Roomy := by
      unfold readSegwitCount
      split
      · exact new_roomy _ _
      · exact h1
    generalize v1.readSegwitCount br2 s2 = z at *
    obtain ⟨v2, br3, s3⟩ := z
    exact readIns_roomy h2

end Tx
end UB
