import Verif.Lemmas.ListParse

/-! An input or output that is still incomplete when its `from_stream` returns although the stream has more bytes stays as it is. -/

namespace UB

theorem PStream.readN_full {s : PStream} {n : Nat} (h : (s.readN n).2.avail = true) : (s.readN n).1.length = n ∧ s.avail = true := by
  unfold PStream.readN PStream.avail at h
  unfold PStream.readN PStream.avail
  dsimp only at h ⊢
  cases hs : s.stuck with
  | true => simp; omega
  | false =>
    simp only [hs, Bool.false_or, Bool.not_eq_true', List.isEmpty_eq_false_iff, ne_eq, List.drop_eq_nil_iff, not_le] at h
    refine ⟨by simp; omega, ?_⟩
    cases hb : s.bytes with
    | nil => simp [hb] at h
    | cons b bs => simp

theorem PStream.readN_some {s : PStream} {n : Nat} (h : s.avail = true) (hn : 0 < n) : 0 < (s.readN n).1.length := by
  unfold PStream.readN PStream.avail at *
  dsimp only at h ⊢
  cases hs : s.stuck with
  | true => simp; omega
  | false =>
    cases hb : s.bytes with
    | nil => simp [hs, hb] at h
    | cons b bs => simp; omega

theorem PStream.readN_len {s : PStream} {n : Nat} : (s.readN n).1.length ≤ n := by
  unfold PStream.readN
  dsimp only
  split
  · simp; omega
  · simp

theorem PStream.readByte_avail {s : PStream} (h : s.readByte.2.avail = true) : s.avail = true := by
  unfold PStream.readByte at h
  cases hb : s.bytes with
  | nil => rw [hb] at h; exact h
  | cons b bs => simp [PStream.avail, hb]

theorem lenLoop_end : ∀ {fuel len pos : Nat} {s : PStream} {len' pos' : Nat} {s' : PStream}, lenLoop fuel len pos s = some (len', pos', s') →
    pos ≤ pos' ∧ pos' ≤ pos + fuel ∧ (s'.avail = true → s.avail = true ∧ pos' = pos + fuel) ∧ (fuel = 0 → len' = len) ∧ (s.avail = true → 0 < fuel → pos < pos') := by
  intro fuel
  induction fuel with
  | zero =>
    intro len pos s len' pos' s' h
    simp only [lenLoop, Option.some.injEq, Prod.mk.injEq] at h
    obtain ⟨rfl, rfl, rfl⟩ := h
    exact ⟨Nat.le_refl _, Nat.le_refl _, fun h => ⟨h, rfl⟩, fun _ => rfl, fun _ h => absurd h (by omega)⟩
  | succ fuel ih =>
    intro len pos s len' pos' s' h
    rw [lenLoop] at h
    by_cases ha : s.avail = true
    · rw [if_pos ha] at h
      split at h
      · cases h
      · rename_i b s1 hr
        split at h
        · cases h
        · split at h
          · cases h
          · obtain ⟨h1, h2, h3, -, -⟩ := ih h
            exact ⟨by omega, by omega, fun h => ⟨ha, by have := (h3 h).2; omega⟩, fun h => by omega, fun _ _ => by omega⟩
    · rw [if_neg ha] at h
      simp only [Option.some.injEq, Prod.mk.injEq] at h
      obtain ⟨rfl, rfl, rfl⟩ := h
      exact ⟨Nat.le_refl _, by omega, fun h => absurd h ha, fun h => by omega, fun h => absurd h ha⟩

namespace Script

/-- The position of a script that is being parsed. -/
def Fed (sc : Script) : Prop := sc.status = .incomplete → sc.bytesParsed < sc.scriptLen + sc.lenLen

/-- How a call ends that started with the stream `s`. -/
def Ends (s : PStream) (r : Script × Nat × PStream) : Prop :=
  r.1.Fed ∧ (r.2.2.avail = true → s.avail = true ∧ r.1.status ≠ .incomplete ∧ (r.1.status = .done → 0 < r.2.1))

theorem readBody_ends (sc : Script) (br : Nat) (s : PStream) (hst : sc.status = .incomplete) (hp : sc.bytesParsed + br ≤ sc.scriptLen + sc.lenLen)
    (s0 : PStream) (h0 : s.avail = true → s0.avail = true) (hb : 0 < br ∨ sc.bytesParsed + br < sc.scriptLen + sc.lenLen) :
    Ends s0 (sc.readBody br s) := by
  unfold readBody
  dsimp only
  have hlen := PStream.readN_len (s := s) (n := sc.scriptLen + sc.lenLen - (sc.bytesParsed + br))
  have hfull := PStream.readN_full (s := s) (n := sc.scriptLen + sc.lenLen - (sc.bytesParsed + br))
  generalize s.readN (sc.scriptLen + sc.lenLen - (sc.bytesParsed + br)) = z at *
  obtain ⟨bs, s1⟩ := z
  dsimp only at hlen hfull ⊢
  split
  · exact ⟨fun h => by simp at h, fun h => ⟨h0 (hfull h).2, by simp, fun h => by simp at h⟩⟩
  · rename_i arr _
    dsimp only [Ends, Fed]
    by_cases hd : sc.bytesParsed + (br + bs.length) = sc.scriptLen + sc.lenLen
    · rw [if_pos hd]
      refine ⟨fun h => (by simp at h), fun h => ⟨h0 (hfull h).2, by simp, fun _ => ?_⟩⟩
      omega
    · rw [if_neg hd, hst]
      refine ⟨fun _ => by omega, fun h => ?_⟩
      have := (hfull h).1
      omega

theorem alloc_ends (sc : Script) (br : Nat) (s : PStream) (hst : sc.status = .incomplete) (hp : sc.bytesParsed + br ≤ sc.scriptLen + sc.lenLen)
    (s0 : PStream) (h0 : s.avail = true → s0.avail = true) (hb : 0 < br ∨ sc.bytesParsed + br < sc.scriptLen + sc.lenLen ∨ sc.bytesParsed + br = sc.lenLen ∧ lenVarIntN sc.scriptLen ≠ sc.lenLen) :
    Ends s0 (sc.alloc br s) := by
  unfold alloc
  split
  · exact ⟨fun h => by simp at h, fun h => ⟨h0 h, by simp, fun h => by simp at h⟩⟩
  · dsimp only
    have e : ∀ c : Prop, [Decidable c] → (if c then { sc with arr := zeros sc.scriptLen } else sc) = { sc with arr := if c then zeros sc.scriptLen else sc.arr } := by
      intro c _
      split <;> rfl
    rw [e]
    dsimp only
    split
    · exact ⟨fun h => by simp at h, fun h => ⟨h0 h, by simp, fun h => by simp at h⟩⟩
    · rename_i hn
      exact readBody_ends { sc with arr := if sc.bytesParsed + br = sc.lenLen ∧ sc.scriptLen > 0 then zeros sc.scriptLen else sc.arr } br s hst hp s0 h0 (by
        rcases hb with h | h | h
        · exact Or.inl h
        · exact Or.inr h
        · exact absurd h hn)

theorem start_fed (sc : Script) (hf : sc.Fed) (h : ¬ (sc.status = .failed ∨ sc.status = .ub)) :
    sc.start.status = .incomplete ∧ (sc.start.bytesParsed = 0 ∨ sc.start.bytesParsed < sc.start.scriptLen + sc.start.lenLen) := by
  refine ⟨rfl, ?_⟩
  unfold start
  by_cases hd : sc.status = .done
  · rw [if_pos hd]
    left
    unfold clear
    split <;> rfl
  · rw [if_neg hd]
    right
    refine hf ?_
    cases e : sc.status with
    | done => exact absurd e hd
    | incomplete => rfl
    | failed => exact absurd (Or.inl e) h
    | ub => exact absurd (Or.inr e) h

theorem fromStream_ends (sc : Script) (s : PStream) (hf : sc.Fed) : (sc.status = .failed ∨ sc.status = .ub) ∨ Ends s (sc.fromStream s) := by
  by_cases hst : sc.status = .failed ∨ sc.status = .ub
  · exact Or.inl hst
  refine Or.inr ?_
  unfold fromStream
  rw [if_neg hst]
  obtain ⟨h1, h2⟩ := start_fed sc hf hst
  generalize sc.start = sc0 at *
  unfold readPrefix
  by_cases hc : s.avail = true ∧ sc0.bytesParsed = 0
  · rw [if_pos hc]
    generalize s.readByte = z
    obtain ⟨b, s1⟩ := z
    dsimp only
    have go : ∀ sc1 : Script, sc1.status = .incomplete → sc1.bytesParsed = 0 → 1 ≤ sc1.lenLen →
        Ends s (match lenLoop (sc1.lenLen - (sc1.bytesParsed + 1)) sc1.scriptLen (sc1.bytesParsed + 1) s1 with
          | none => ({ sc1 with status := .ub }, 0, s1)
          | some (len, pos, s) => alloc { sc1 with scriptLen := len } (pos - sc1.bytesParsed) s) := by
      intro sc1 q1 q2 q3
      cases hl : lenLoop (sc1.lenLen - (sc1.bytesParsed + 1)) sc1.scriptLen (sc1.bytesParsed + 1) s1 with
      | none => exact ⟨fun h => by simp at h, fun h => ⟨hc.1, by simp, fun h => by simp at h⟩⟩
      | some r =>
        obtain ⟨len, pos, s2⟩ := r
        obtain ⟨k1, k2, -, -, -⟩ := lenLoop_end hl
        dsimp only
        exact alloc_ends { sc1 with scriptLen := len } _ _ q1 (by dsimp only; omega) s (fun _ => hc.1) (Or.inl (by omega))
    by_cases hb : b < 0xfd
    · rw [if_pos hb]
      exact go { sc0 with scriptLen := b.toNat, lenLen := 1, arr := if b = 0 then sc0.arr else zeros b.toNat } h1 hc.2 (Nat.le_refl _)
    · rw [if_neg hb]
      exact go { sc0 with scriptLen := 0, lenLen := 1 + 2 ^ (b.toNat - 0xfc), arr := zeros 255 } h1 hc.2 (Nat.le_add_right _ _)
  · rw [if_neg hc]
    dsimp only
    cases hl : lenLoop (sc0.lenLen - (sc0.bytesParsed + 0)) sc0.scriptLen (sc0.bytesParsed + 0) s with
    | none => exact ⟨fun h => by simp at h, fun h => ⟨h, by simp, fun h => by simp at h⟩⟩
    | some r =>
      obtain ⟨len, pos, s2⟩ := r
      obtain ⟨k1, k2, k3, k4, k5⟩ := lenLoop_end hl
      dsimp only
      have hp : sc0.bytesParsed + (pos - sc0.bytesParsed) ≤ len + sc0.lenLen := by
        by_cases hz : sc0.lenLen - (sc0.bytesParsed + 0) = 0
        · rw [k4 hz]
          omega
        · omega
      refine alloc_ends { sc0 with scriptLen := len } _ _ h1 hp s (fun h => (k3 h).1) ?_
      dsimp only
      by_cases hz : sc0.lenLen - (sc0.bytesParsed + 0) = 0
      · rw [k4 hz]
        rcases h2 with h2 | h2
        · by_cases h3 : 0 < sc0.scriptLen
          · right; left; omega
          · right; right
            have : sc0.lenLen = 0 := by omega
            rw [show sc0.scriptLen = 0 by omega, this]
            exact ⟨by omega, by decide⟩
        · right; left; omega
      · rcases Nat.eq_or_lt_of_le k1 with e | e
        · right; left; omega
        · left; omega

theorem fromStream_fed (sc : Script) (s : PStream) (hf : sc.Fed) : (sc.fromStream s).1.Fed := by
  rcases fromStream_ends sc s hf with h | h
  · unfold fromStream
    rw [if_pos h]
    exact hf
  · exact h.1

end Script

namespace TxIn

/-- Complete, or never to be completed. -/
def Settled (i : TxIn) : Prop :=
  i.status = .done ∨ (i.status = .incomplete ∧ i.scriptSig.status = .done ∧ 36 + i.scriptSig.length + 4 < i.bytesParsed)

theorem Settled.stays {i : TxIn} (h : i.Settled) (hi : i.status = .incomplete) (s : PStream) : i.fromStream s = (i, 0, s) := by
  rcases h with h | ⟨-, h1, h2⟩
  · rw [hi] at h; cases h
  have r0 : ∀ {n} (s : PStream), n = 0 → s.readN n = ([], s) := by
    intro n s e
    subst e
    simp [PStream.readN]
  have e0 : i.start = i := by
    unfold start
    rw [if_neg (by rw [hi]; simp), ← hi]
  have e1 : i.readHead s = (i, 0, s) := by
    unfold readHead
    rw [r0 s (by omega)]
    dsimp only
    rw [r0 s (by simp; omega)]
    simp [accLE]
  have e2 : i.readScript 0 s = (i, 0, s) := by
    unfold readScript
    rw [if_neg (by rintro ⟨-, c⟩; omega)]
    dsimp only
    rw [if_neg (by rintro ⟨-, c⟩; rw [h1] at c; cases c)]
    rfl
  unfold fromStream
  rw [if_neg (by rw [hi]; simp), e0, e1]
  dsimp only
  rw [e2]
  dsimp only
  unfold readTail
  rw [if_neg (by rw [h1]; simp), if_neg (by rw [h1]; simp)]
  dsimp only
  rw [r0 s (by omega)]
  dsimp only
  rw [if_neg (by simp)]
  rw [if_neg (by rintro ⟨-, c⟩; simp at c; omega)]
  simp [accLE]

theorem script_ends (c : Prop) [Decidable c] (sc : Script) (s : PStream) (hf : sc.Fed) : (if c then sc.fromStream s else (sc, 0, s)).1.Fed ∧
    ((if c then sc.fromStream s else (sc, 0, s)).2.2.avail = true → s.avail = true ∧
      (c → (if c then sc.fromStream s else (sc, 0, s)).1.status ≠ .incomplete ∧
        (sc.status ≠ .ub → sc.status ≠ .failed → (if c then sc.fromStream s else (sc, 0, s)).1.status = .done → 0 < (if c then sc.fromStream s else (sc, 0, s)).2.1))) := by
  by_cases hc : c
  · rw [if_pos hc]
    refine ⟨Script.fromStream_fed sc s hf, fun ha => ?_⟩
    rcases Script.fromStream_ends sc s hf with h | h
    · unfold Script.fromStream at ha ⊢
      rw [if_pos h] at ha ⊢
      refine ⟨ha, fun _ => ⟨fun c => ?_, fun h1 h2 => ?_⟩⟩
      · dsimp only at c
        rw [c] at h
        simp at h
      · rcases h with h | h
        · exact absurd h h2
        · exact absurd h h1
    · obtain ⟨g1, g2, g3⟩ := h.2 ha
      exact ⟨g1, fun _ => ⟨g2, fun _ _ => g3⟩⟩
  · rw [if_neg hc]
    exact ⟨hf, fun ha => ⟨ha, fun c => absurd c hc⟩⟩

/-- How a call ends. -/
theorem fromStream_ends (i : TxIn) (s : PStream) (hf : i.scriptSig.Fed) :
    (i.fromStream s).1.scriptSig.Fed ∧ ((i.fromStream s).2.2.avail = true → s.avail = true ∧ ((i.fromStream s).1.status = .incomplete → (i.fromStream s).1.Settled)) := by
  unfold fromStream
  by_cases hst : i.status = .failed ∨ i.status = .ub
  · rw [if_pos hst]
    exact ⟨hf, fun h => ⟨h, fun c => by dsimp only at c; rw [c] at hst; simp at hst⟩⟩
  rw [if_neg hst]
  have f0 : i.start.scriptSig.Fed ∧ i.start.status = .incomplete := by
    refine ⟨?_, rfl⟩
    unfold start
    split
    · dsimp only [Script.assign]
      intro c
      simp [Script.clear] at c
      split at c <;> simp at c
    · exact hf
  generalize i.start = i0 at *
  have hd : ((i0.readHead s).2.2.avail = true → s.avail = true ∧ 36 ≤ (i0.readHead s).1.bytesParsed + (i0.readHead s).2.1) ∧ (i0.readHead s).1.scriptSig = i0.scriptSig ∧ (i0.readHead s).1.status = i0.status := by
    refine ⟨?_, rfl, rfl⟩
    unfold readHead
    dsimp only
    have q1 := PStream.readN_full (s := s) (n := 32 - i0.bytesParsed)
    generalize s.readN (32 - i0.bytesParsed) = z at *
    obtain ⟨x, s1⟩ := z
    dsimp only at q1 ⊢
    have q2 := PStream.readN_full (s := s1) (n := 36 - (i0.bytesParsed + x.length))
    generalize s1.readN (36 - (i0.bytesParsed + x.length)) = z at *
    obtain ⟨y, s2⟩ := z
    dsimp only at q2 ⊢
    intro ha
    obtain ⟨a1, a2⟩ := q2 ha
    exact ⟨(q1 a2).2, by omega⟩
  rcases er : i0.readHead s with ⟨i1, br, s1⟩
  rw [er] at hd
  dsimp only at hd ⊢
  obtain ⟨d1, d2, d3⟩ := hd
  rw [f0.2] at d3
  have f1 : i1.scriptSig.Fed := by rw [d2]; exact f0.1
  unfold readScript
  obtain ⟨p1, p2⟩ := script_ends (s1.avail = true ∧ br + i1.bytesParsed = 36) i1.scriptSig s1 f1
  generalize (if s1.avail = true ∧ br + i1.bytesParsed = 36 then i1.scriptSig.fromStream s1 else (i1.scriptSig, 0, s1)) = z at *
  obtain ⟨sc, n, s2⟩ := z
  dsimp only at p1 p2 ⊢
  obtain ⟨q1, q2⟩ := script_ends (s2.avail = true ∧ sc.status = .incomplete) sc s2 p1
  have q3 : ¬ (s2.avail = true ∧ sc.status = .incomplete) → (if s2.avail = true ∧ sc.status = .incomplete then sc.fromStream s2 else (sc, 0, s2)).1 = sc := fun h => by rw [if_neg h]
  generalize (if s2.avail = true ∧ sc.status = .incomplete then sc.fromStream s2 else (sc, 0, s2)) = z at *
  obtain ⟨sc', m, s3⟩ := z
  dsimp only at q1 q2 q3 ⊢
  have chain : s3.avail = true → s.avail = true ∧ 36 ≤ i1.bytesParsed + br ∧ sc'.status ≠ .incomplete := by
    intro ha
    obtain ⟨b1, b2⟩ := q2 ha
    obtain ⟨c1, c2⟩ := p2 b1
    obtain ⟨e1, e2⟩ := d1 c1
    refine ⟨e1, e2, ?_⟩
    by_cases hx : sc.status = .incomplete
    · exact (b2 ⟨b1, hx⟩).1
    · rw [q3 (fun c => hx c.2)]
      exact hx
  unfold readTail
  dsimp only
  by_cases x1 : sc'.status = .failed
  · rw [if_pos x1]
    exact ⟨q1, fun ha => ⟨(chain ha).1, fun c => by simp at c⟩⟩
  rw [if_neg x1]
  by_cases x2 : sc'.status = .ub
  · rw [if_pos x2]
    exact ⟨q1, fun ha => ⟨(chain ha).1, fun c => by simp at c⟩⟩
  rw [if_neg x2]
  have rn := PStream.readN_full (s := s3) (n := 36 + sc'.length + 4 - (br + n + m + i1.bytesParsed))
  generalize s3.readN (36 + sc'.length + 4 - (br + n + m + i1.bytesParsed)) = z at *
  obtain ⟨q, s4⟩ := z
  dsimp only at rn ⊢
  split
  · exact ⟨q1, fun ha => ⟨(chain (rn ha).2).1, fun c => by simp at c⟩⟩
  · refine ⟨q1, fun ha => ?_⟩
    obtain ⟨a1, a2⟩ := rn ha
    obtain ⟨b1, b2, b3⟩ := chain a2
    refine ⟨b1, fun hc => ?_⟩
    dsimp only at hc ⊢
    have hdone : sc'.status = .done := by
      cases e : sc'.status with
      | done => rfl
      | incomplete => exact absurd e b3
      | failed => exact absurd e x1
      | ub => exact absurd e x2
    refine Or.inr ⟨hc, hdone, ?_⟩
    dsimp only
    by_contra hlt
    rw [if_pos ⟨hdone, by omega⟩] at hc
    cases hc

end TxIn

namespace TxOut

/-- Complete, or never to be completed. -/
def Settled (o : TxOut) : Prop :=
  o.status = .done ∨ (o.status = .incomplete ∧ o.scriptPubkey.status = .done ∧ 8 < o.bytesParsed ∧ o.bytesParsed ≠ 8 + o.scriptPubkey.length)

theorem Settled.stays {i : TxOut} (h : i.Settled) (hi : i.status = .incomplete) (s : PStream) : i.fromStream s = (i, 0, s) := by
  rcases h with h | ⟨-, h1, h2, h3⟩
  · rw [hi] at h; cases h
  have r0 : ∀ {n} (s : PStream), n = 0 → s.readN n = ([], s) := by
    intro n s e
    subst e
    simp [PStream.readN]
  have e0 : i.start = i := by
    unfold start
    rw [if_neg (by rw [hi]; simp), ← hi]
  have e1 : i.readHead s = (i, 0, s) := by
    unfold readHead
    rw [r0 s (by omega)]
    simp
  have e2 : i.readScript 0 s = (i, 0, s) := by
    unfold readScript
    rw [if_neg (by rintro ⟨-, c⟩; omega)]
    dsimp only
    rw [if_neg (by rintro ⟨-, c⟩; rw [h1] at c; cases c)]
    rfl
  unfold fromStream
  rw [if_neg (by rw [hi]; simp), e0, e1]
  dsimp only
  rw [e2]
  dsimp only
  unfold readTail
  rw [if_neg (by rw [h1]; simp), if_neg (by rw [h1]; simp)]
  dsimp only
  rw [if_neg (by rintro ⟨-, c⟩; omega)]
  rfl

/-- How a call ends. -/
theorem fromStream_ends (i : TxOut) (s : PStream) (hf : i.scriptPubkey.Fed) :
    (i.fromStream s).1.scriptPubkey.Fed ∧ ((i.fromStream s).2.2.avail = true → s.avail = true ∧ ((i.fromStream s).1.status = .incomplete → (i.fromStream s).1.Settled)) := by
  unfold fromStream
  by_cases hst : i.status = .failed ∨ i.status = .ub
  · rw [if_pos hst]
    exact ⟨hf, fun h => ⟨h, fun c => by dsimp only at c; rw [c] at hst; simp at hst⟩⟩
  rw [if_neg hst]
  have f0 : i.start.scriptPubkey.Fed ∧ i.start.status = .incomplete := by
    refine ⟨?_, rfl⟩
    unfold start
    split
    · intro c
      simp at c
    · exact hf
  generalize i.start = i0 at *
  have hd : ((i0.readHead s).2.2.avail = true → s.avail = true ∧ 8 ≤ (i0.readHead s).1.bytesParsed + (i0.readHead s).2.1) ∧ (i0.readHead s).1.scriptPubkey = i0.scriptPubkey ∧ (i0.readHead s).1.status = i0.status := by
    refine ⟨?_, rfl, rfl⟩
    unfold readHead
    dsimp only
    have q1 := PStream.readN_full (s := s) (n := 8 - i0.bytesParsed)
    generalize s.readN (8 - i0.bytesParsed) = z at *
    obtain ⟨x, s1⟩ := z
    dsimp only at q1 ⊢
    intro ha
    obtain ⟨a1, a2⟩ := q1 ha
    exact ⟨a2, by omega⟩
  rcases er : i0.readHead s with ⟨i1, br, s1⟩
  rw [er] at hd
  dsimp only at hd ⊢
  obtain ⟨d1, d2, d3⟩ := hd
  rw [f0.2] at d3
  have f1 : i1.scriptPubkey.Fed := by rw [d2]; exact f0.1
  unfold readScript
  obtain ⟨p1, p2⟩ := TxIn.script_ends (s1.avail = true ∧ br + i1.bytesParsed = 8) i1.scriptPubkey s1 f1
  have p3 : i1.scriptPubkey.status = .failed ∨ i1.scriptPubkey.status = .ub →
      (if s1.avail = true ∧ br + i1.bytesParsed = 8 then i1.scriptPubkey.fromStream s1 else (i1.scriptPubkey, 0, s1)) = (i1.scriptPubkey, 0, s1) := by
    intro h
    split
    · unfold Script.fromStream
      rw [if_pos h]
    · rfl
  generalize (if s1.avail = true ∧ br + i1.bytesParsed = 8 then i1.scriptPubkey.fromStream s1 else (i1.scriptPubkey, 0, s1)) = z at *
  obtain ⟨sc, n, s2⟩ := z
  dsimp only at p1 p2 ⊢
  obtain ⟨q1, q2⟩ := TxIn.script_ends (s2.avail = true ∧ sc.status = .incomplete) sc s2 p1
  have q3 : ¬ (s2.avail = true ∧ sc.status = .incomplete) → (if s2.avail = true ∧ sc.status = .incomplete then sc.fromStream s2 else (sc, 0, s2)).1 = sc := fun h => by rw [if_neg h]
  generalize (if s2.avail = true ∧ sc.status = .incomplete then sc.fromStream s2 else (sc, 0, s2)) = z at *
  obtain ⟨sc', m, s3⟩ := z
  dsimp only at q1 q2 q3 ⊢
  have chain : s3.avail = true → s.avail = true ∧ 8 ≤ i1.bytesParsed + br ∧ sc'.status ≠ .incomplete ∧ (sc'.status = .done → br + i1.bytesParsed = 8 → 0 < n) := by
    intro ha
    obtain ⟨b1, b2⟩ := q2 ha
    obtain ⟨c1, c2⟩ := p2 b1
    obtain ⟨e1, e2⟩ := d1 c1
    refine ⟨e1, e2, ?_⟩
    by_cases hx : sc.status = .incomplete
    · refine ⟨(b2 ⟨b1, hx⟩).1, fun _ h8 => absurd hx (c2 ⟨c1, h8⟩).1⟩
    · rw [q3 (fun c => hx c.2)]
      refine ⟨hx, fun hdn h8 => (c2 ⟨c1, h8⟩).2 (fun c => ?_) (fun c => ?_) hdn⟩
      · have := p3 (Or.inr c)
        injection this with this _
        rw [this, c] at hdn
        cases hdn
      · have := p3 (Or.inl c)
        injection this with this _
        rw [this, c] at hdn
        cases hdn
  unfold readTail
  dsimp only
  by_cases x1 : sc'.status = .failed
  · rw [if_pos x1]
    exact ⟨q1, fun ha => ⟨(chain ha).1, fun c => by simp at c⟩⟩
  rw [if_neg x1]
  by_cases x2 : sc'.status = .ub
  · rw [if_pos x2]
    exact ⟨q1, fun ha => ⟨(chain ha).1, fun c => by simp at c⟩⟩
  rw [if_neg x2]
  refine ⟨q1, fun ha => ?_⟩
  obtain ⟨b1, b2, b3, b4⟩ := chain ha
  refine ⟨b1, fun hc => ?_⟩
  dsimp only at hc ⊢
  have hdone : sc'.status = .done := by
    cases e : sc'.status with
    | done => rfl
    | incomplete => exact absurd e b3
    | failed => exact absurd e x1
    | ub => exact absurd e x2
  have b5 := b4 hdone
  refine Or.inr ⟨hc, hdone, ?_, ?_⟩
  · dsimp only
    omega
  · dsimp only
    intro he
    rw [if_pos ⟨hdone, by omega⟩] at hc
    cases hc

end TxOut

/-- A list in which nothing changes. -/
theorem contLoop_still {γ : Type} {f : γ → PStream → γ × Nat × PStream} {st : γ → Status} : ∀ (xs : List γ) (s : PStream),
    (∀ x ∈ xs, st x = .done ∨ (st x = .incomplete ∧ ∀ s, f x s = (x, 0, s))) → Tx.contLoop f st xs s = (xs, 0, s, true) := by
  intro xs
  induction xs with
  | nil => intro s _; rfl
  | cons x xs ih =>
    intro s h
    rw [Tx.contLoop]
    have e : (if s.avail = true ∧ st x = .incomplete then f x s else (x, 0, s)) = (x, 0, s) := by
      split
      · rename_i hc
        rcases h x (by simp) with h | h
        · rw [h] at hc; cases hc.2
        · exact h.2 s
      · rfl
    rw [e]
    dsimp only
    rw [if_neg (by rcases h x (by simp) with h | h <;> simp [h]), ih s (fun y hy => h y (by simp [hy]))]
    rfl

/-- After a loop that was not stopped, with bytes left in the stream, everything is complete or stays as it is. -/
theorem contLoop_settles {γ : Type} {f : γ → PStream → γ × Nat × PStream} {st : γ → Status} {Fed S : γ → Prop}
    (hf : ∀ x s, Fed x → (f x s).2.2.avail = true → s.avail = true ∧ (st (f x s).1 = .incomplete → S (f x s).1)) : ∀ (xs : List γ) (s : PStream),
    (∀ x ∈ xs, Fed x) → (Tx.contLoop f st xs s).2.2.2 = true → (Tx.contLoop f st xs s).2.2.1.avail = true →
      s.avail = true ∧ ∀ x ∈ (Tx.contLoop f st xs s).1, st x = .done ∨ (st x = .incomplete ∧ S x) := by
  intro xs
  induction xs with
  | nil => intro s _ _ h; exact ⟨h, fun x hx => by simp [Tx.contLoop] at hx⟩
  | cons x xs ih =>
    intro s hF hg ha
    rw [Tx.contLoop] at hg ha ⊢
    have hx : (if s.avail = true ∧ st x = .incomplete then f x s else (x, 0, s)).2.2.avail = true → s.avail = true ∧
        (st (if s.avail = true ∧ st x = .incomplete then f x s else (x, 0, s)).1 = .incomplete → S (if s.avail = true ∧ st x = .incomplete then f x s else (x, 0, s)).1) := by
      split
      · exact hf x s (hF x (by simp))
      · rename_i hc
        exact fun h => ⟨h, fun h2 => absurd ⟨h, h2⟩ hc⟩
    generalize (if s.avail = true ∧ st x = .incomplete then f x s else (x, 0, s)) = z at *
    obtain ⟨y, n, s1⟩ := z
    dsimp only at hg ha hx ⊢
    by_cases hb : st y = .failed ∨ st y = .ub
    · rw [if_pos hb] at hg
      cases hg
    rw [if_neg hb] at hg ha ⊢
    obtain ⟨i1, i2⟩ := ih s1 (fun z hz => hF z (by simp [hz])) hg ha
    obtain ⟨k1, k2⟩ := hx i1
    refine ⟨k1, fun z hz => ?_⟩
    rcases List.mem_cons.1 hz with rfl | hz
    · cases e : st z with
      | done => exact Or.inl rfl
      | incomplete => exact Or.inr ⟨rfl, k2 e⟩
      | failed => exact absurd (Or.inl e) hb
      | ub => exact absurd (Or.inr e) hb
    · exact i2 z hz

end UB
