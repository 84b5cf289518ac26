import Verif.Lemmas.HeapPsbtAdd
import Verif.Lemmas.PSBTParse
import Verif.Lemmas.PSBTLife

/-! What holds of the values of a PSBT while it is parsed: an incomplete key or value means that the stream is used up, and the metadata that has
been accepted is complete. -/

namespace UB
open Heap Spec

/-! ### Scripts -/

theorem PStream.readN_all (s : PStream) (n : Nat) : (s.readN n).1.length ≤ n ∧ ((s.readN n).1.length = n ∨ (s.readN n).2.avail = false) := by
  unfold PStream.readN PStream.avail
  cases s.stuck with
  | true =>
    simp only [if_true, List.length_append, List.length_take, List.length_replicate]
    exact ⟨by omega, Or.inl (by omega)⟩
  | false =>
    simp only [Bool.false_eq_true, if_false, List.append_nil, List.length_take, Bool.false_or]
    refine ⟨by omega, ?_⟩
    by_cases h : n ≤ s.bytes.length
    · exact Or.inl (by omega)
    · right
      rw [List.drop_eq_nil_of_le (by omega)]
      rfl

theorem PStream.readN_none {s : PStream} (h : s.avail = false) (n : Nat) : s.readN n = ([], s) := by
  unfold PStream.avail at h
  obtain ⟨bs, st⟩ := s
  cases st with
  | true => simp at h
  | false =>
    cases bs with
    | nil => simp [PStream.readN]
    | cons _ _ => simp at h

theorem lenLoop_stops : ∀ (fuel len pos : Nat) (s : PStream) {len' pos' : Nat} {s' : PStream}, lenLoop fuel len pos s = some (len', pos', s') →
    pos ≤ pos' ∧ pos' ≤ pos + fuel ∧ (pos' = pos + fuel ∨ s'.avail = false) ∧ (fuel = 0 → len' = len) ∧ (s.avail = false → pos' = pos ∧ s' = s) := by
  intro fuel
  induction fuel with
  | zero => intro len pos s len' pos' s' h; cases h; exact ⟨by omega, by omega, Or.inl rfl, fun _ => rfl, fun _ => ⟨rfl, rfl⟩⟩
  | succ fuel ih =>
    intro len pos s len' pos' s' h
    rw [lenLoop] at h
    by_cases ha : s.avail = true
    · rw [if_pos ha] at h
      split at h
      · cases h
      · split at h
        · cases h
        · split at h
          · cases h
          · obtain ⟨h1, h2, h3, -, -⟩ := ih _ _ _ h
            exact ⟨by omega, by omega, h3.imp (fun c => by omega) id, fun c => by omega, fun c => by rw [c] at ha; cases ha⟩
    · rw [if_neg ha] at h
      cases h
      exact ⟨by omega, by omega, Or.inr (by simpa using ha), fun c => by omega, fun _ => ⟨rfl, rfl⟩⟩

namespace Script

/-- The number of bytes read is not larger than that of the bytes there are. -/
def Within (sc : Script) : Prop := sc.status = .incomplete → 0 < sc.bytesParsed → sc.lenLen ≤ sc.bytesParsed → sc.bytesParsed ≤ sc.scriptLen + sc.lenLen

theorem Within.of_ne {sc : Script} (h : sc.status ≠ .incomplete) : sc.Within := fun c => absurd c h

theorem readBody_within (sc : Script) (br : Nat) (s : PStream)
    (h : 0 < sc.bytesParsed + br → sc.lenLen ≤ sc.bytesParsed + br → sc.bytesParsed + br ≤ sc.scriptLen + sc.lenLen)
    (h2 : s.avail = false ∨ sc.bytesParsed + br ≤ sc.scriptLen + sc.lenLen) :
    (sc.readBody br s).1.Within ∧ ((sc.readBody br s).1.status = .incomplete → (sc.readBody br s).2.2.avail = false) := by
  unfold readBody
  dsimp only
  obtain ⟨l1, l2⟩ := s.readN_all (sc.scriptLen + sc.lenLen - (sc.bytesParsed + br))
  have l3 := fun c => PStream.readN_none (s := s) c (sc.scriptLen + sc.lenLen - (sc.bytesParsed + br))
  generalize s.readN (sc.scriptLen + sc.lenLen - (sc.bytesParsed + br)) = z at *
  obtain ⟨bs, s'⟩ := z
  dsimp only at l1 l2 l3 ⊢
  cases writeAt sc.arr (sc.bytesParsed + br - sc.lenLen) bs with
  | none => exact ⟨Within.of_ne (by simp), fun c => by cases c⟩
  | some arr =>
    dsimp only
    rcases h2 with h2 | h2
    · obtain ⟨e1, e2⟩ := Prod.mk.inj (l3 h2)
      subst e1 e2
      refine ⟨fun _ c1 c2 => ?_, fun _ => h2⟩
      simp only [List.length_nil, Nat.add_zero] at c1 c2 ⊢
      exact h c1 c2
    · refine ⟨fun _ c1 c2 => ?_, fun c => ?_⟩
      · show sc.bytesParsed + (br + bs.length) ≤ sc.scriptLen + sc.lenLen
        omega
      · rcases l2 with l2 | l2
        · rw [if_pos (by omega)] at c
          cases c
        · exact l2

theorem alloc_within (sc : Script) (br : Nat) (s : PStream)
    (h : 0 < sc.bytesParsed + br → sc.lenLen ≤ sc.bytesParsed + br → sc.bytesParsed + br ≤ sc.scriptLen + sc.lenLen)
    (h2 : s.avail = false ∨ sc.bytesParsed + br ≤ sc.scriptLen + sc.lenLen) :
    (sc.alloc br s).1.Within ∧ ((sc.alloc br s).1.status = .incomplete → (sc.alloc br s).2.2.avail = false) := by
  unfold alloc
  split
  · exact ⟨Within.of_ne (by simp), fun c => by cases c⟩
  · by_cases hc : sc.bytesParsed + br = sc.lenLen ∧ sc.scriptLen > 0
    · rw [if_pos hc]
      dsimp only
      split
      · exact ⟨Within.of_ne (by simp), fun c => by cases c⟩
      · exact readBody_within { sc with arr := zeros sc.scriptLen } br s h h2
    · rw [if_neg hc]
      dsimp only
      split
      · exact ⟨Within.of_ne (by simp), fun c => by cases c⟩
      · exact readBody_within sc br s h h2

theorem rest_within (sc : Script) (br : Nat) (s : PStream) (h0 : sc.lenLen < sc.bytesParsed + br → 0 < sc.bytesParsed + br → sc.bytesParsed + br ≤ sc.scriptLen + sc.lenLen)
    (h1 : sc.bytesParsed + br = 0 → s.avail = false) :
    (sc.rest br s).1.Within ∧ ((sc.rest br s).1.status = .incomplete → (sc.rest br s).2.2.avail = false) := by
  cases e : lenLoop (sc.lenLen - (sc.bytesParsed + br)) sc.scriptLen (sc.bytesParsed + br) s with
  | none =>
    rw [rest_none _ _ _ e]
    exact ⟨Within.of_ne (by simp), fun c => by cases c⟩
  | some z =>
    obtain ⟨len, pos, s'⟩ := z
    rw [rest_some _ _ _ _ _ _ e]
    obtain ⟨l1, l2, l3, l4, l5⟩ := lenLoop_stops _ _ _ _ e
    have ep : sc.bytesParsed + (pos - sc.bytesParsed) = pos := by omega
    have key : 0 < pos → sc.lenLen ≤ pos → pos ≤ len + sc.lenLen := by
      intro c1 c2
      by_cases hb : sc.lenLen < sc.bytesParsed + br
      · have : sc.lenLen - (sc.bytesParsed + br) = 0 := by omega
        rw [l4 this]
        have := h0 hb (by omega)
        omega
      · omega
    refine alloc_within { sc with scriptLen := len } (pos - sc.bytesParsed) s' ?_ ?_
    · dsimp only
      rw [ep]
      exact key
    · dsimp only
      rw [ep]
      by_cases h00 : sc.bytesParsed + br = 0
      · obtain ⟨e1, e2⟩ := l5 (h1 h00)
        rw [e2]
        exact Or.inl (h1 h00)
      · rcases l3 with l3 | l3
        · exact Or.inr (key (by omega) (by omega))
        · exact Or.inl l3

/-- After a call: the counters fit, and a script that is still incomplete has used up the stream. -/
theorem fromStream_within (sc : Script) (s : PStream) (h : sc.Within) :
    (sc.fromStream s).1.Within ∧ ((sc.fromStream s).1.status = .incomplete → (sc.fromStream s).2.2.avail = false) := by
  by_cases hst : sc.status = .failed ∨ sc.status = .ub
  · unfold fromStream
    rw [if_pos hst]
    exact ⟨h, fun c => by rcases hst with hst | hst <;> (rw [hst] at c; cases c)⟩
  · rw [fromStream_eq _ _ hst]
    have hw : sc.start.bytesParsed = 0 ∨ sc.start = sc ∧ sc.status = .incomplete := by
      unfold start
      by_cases hd : sc.status = .done
      · rw [if_pos hd]
        left
        unfold clear
        split <;> rfl
      · rw [if_neg hd]
        have hi : sc.status = .incomplete := by
          revert hst hd
          cases sc.status <;> simp
        refine Or.inr ⟨?_, hi⟩
        cases sc
        simp only at hi
        rw [hi]
    unfold readPrefix
    by_cases hc : s.avail = true ∧ sc.start.bytesParsed = 0
    · rw [if_pos hc]
      split
      rename_i b s' _
      split
      · refine rest_within _ _ _ ?_ ?_
        · dsimp only; rw [hc.2]; omega
        · dsimp only; omega
      · refine rest_within _ _ _ ?_ ?_
        · dsimp only
          rw [hc.2]
          have := Nat.one_le_two_pow (n := b.toNat - 0xfc)
          omega
        · dsimp only; omega
    · rw [if_neg hc]
      refine rest_within _ _ _ ?_ ?_
      · dsimp only
        intro c1 c2
        rcases hw with hw | ⟨hw, hi⟩
        · omega
        · rw [hw] at c1 c2 ⊢
          exact h hi (by omega) (by omega)
      · dsimp only
        intro c
        have : ¬ s.avail = true := fun ha => hc ⟨ha, by omega⟩
        simpa using this

theorem readVar_not_more (d : Bytes) (hd : d.length < 2 ^ 64) : readVar (varBytes d) ≠ .more := by
  by_cases h : d.length < 2 ^ 31
  · have := readVar_varBytes d [] h
    rw [List.append_nil] at this
    rw [this]
    simp
  · unfold varBytes
    by_cases h4 : d.length < 4294967296
    · rw [compactSize_4 (by omega) h4, List.cons_append]
      unfold readVar
      dsimp only
      rw [if_neg (by decide)]
      have e4 : extraBytes 0xfe = 4 := by decide
      rw [e4, if_neg (by simp)]
      split
      · simp
      · rename_i hp
        exfalso
        apply hp
        right
        unfold prefixValue
        rw [if_neg (by decide), e4, List.take_left' (by simp), leValue_leBytes]
        rw [Nat.mod_eq_of_lt (by norm_num; omega)]
        omega
    · rw [compactSize_8 h4, List.cons_append]
      unfold readVar
      dsimp only
      rw [if_pos rfl, if_neg]
      · simp
      · have : (leBytes 8 d.length).length = 8 := by simp
        rw [List.length_append]
        omega

theorem clear_ready {sc : Script} (h1 : sc.status = .done) (h2 : sc.scriptLen = 0 → sc.arr = []) : sc.clear.Ready := by
  unfold clear
  split
  · exact ⟨h1, rfl⟩
  · rename_i h
    have : sc.scriptLen = 0 := by omega
    exact ⟨h1, by rw [h2 this, this]; rfl⟩

theorem fromStream_clear {sc : Script} (h1 : sc.status = .done) (s : PStream) : sc.clear.fromStream s = sc.fromStream s := by
  have e : sc.clear.start = sc.start := by
    unfold start clear
    by_cases h : sc.scriptLen > 0
    · simp [h, h1]
    · simp [h, h1]
  have e2 : sc.clear.status = .done := by
    unfold clear
    split <;> exact h1
  rw [fromStream_eq _ _ (by rw [e2]; simp), fromStream_eq sc _ (by rw [h1]; simp), e]

/-- A whole serialized script is not incomplete. -/
theorem Settled.parse {sc : Script} (h : sc.Settled) (d : Bytes) (hd : d.length < 2 ^ 64) (hu : (sc.fromStream (.of (varBytes d))).1.status ≠ .ub) :
    (sc.fromStream (.of (varBytes d))).1.Settled := by
  rcases h with ⟨h1, h2⟩ | h
  · rw [← fromStream_clear h1] at hu ⊢
    have hne : varBytes d ≠ [] := by
      unfold varBytes
      intro c
      have := compactSize_length d.length
      rw [(List.append_eq_nil_iff.1 c).1] at this
      simp at this
    have o := feed sc.clear [] (varBytes d) (Or.inl ⟨clear_ready h1 h2, rfl, hne⟩)
    unfold Outcome at o
    rw [List.nil_append] at o
    cases e : readVar (varBytes d) with
    | more => exact absurd e (readVar_not_more d hd)
    | bad =>
      rw [e] at o
      rcases o.1 with o | o
      · exact Or.inr o
      · exact absurd o hu
    | ok d' r =>
      rw [e] at o
      refine Or.inl ⟨o.1, fun h0 => ?_⟩
      rw [o.2.1.2]
      rw [o.2.1.1] at h0
      exact List.length_eq_zero_iff.1 h0
  · unfold fromStream
    rw [if_pos (Or.inl h)]
    exact Or.inr h

theorem Settled.fresh (sc : Script) : (({} : Script).assign sc).Settled := by
  refine Or.inl ⟨?_, ?_⟩
  · unfold Script.assign
    dsimp only
    split <;> rfl
  · unfold Script.assign
    dsimp only
    split
    · intro c; dsimp only at c; omega
    · intro _; rfl

theorem ser_fits {sc : Script} (h : sc.Fits) : sc.ser = .ok (varBytes (sc.arr.take sc.scriptLen)) := by
  have hh : ({ sc with arr := sc.arr.take sc.scriptLen } : Script).Holds (sc.arr.take sc.scriptLen) :=
    ⟨by show sc.scriptLen = _; rw [List.length_take]; exact (Nat.min_eq_left h.1).symm, rfl⟩
  have hl : (sc.arr.take sc.scriptLen).length = sc.scriptLen := by rw [List.length_take]; exact Nat.min_eq_left h.1
  have e : ∀ cap off, sc.toStream cap off = .ok (window cap off (varBytes (sc.arr.take sc.scriptLen))) := by
    intro cap off
    have hd := h.2
    rw [← hl] at hd
    unfold Script.toStream
    have hl' := compactSize_length sc.scriptLen
    rw [lenVarIntN_eq _ h.2, writeVarInt_zeros _ _ h.2 (by omega)]
    simp only [C.bind_ok]
    rw [← Ser.after_nil cap off, Ser.emit_after' cap off [] _ (compactSize sc.scriptLen).length (by simp) _ _ (by simp) (by simp)]
    simp only [C.bind_ok, List.nil_append, List.take_left']
    rw [Ser.emit_after' cap off _ _ sc.scriptLen h.1 _ _ rfl rfl]
    unfold varBytes
    rw [hl]
    rfl
  unfold Script.ser
  rw [serialize_eq _ _ e, C.bind_ok]
  have : sc.length = (varBytes (sc.arr.take sc.scriptLen)).length := by
    unfold Script.length varBytes
    rw [lenVarIntN_eq _ h.2, List.length_append, hl]
    omega
  rw [this]
  simp [serialized]

end Script

/-! ### The metadata -/

theorem InMeta.add_whole {junk : Bytes} {m m' : InMeta} {i : TxIn} {code : UInt8} {ka d : Bytes} {r : Int} (hd : d.length < 2 ^ 64)
    (h : m.add junk i code ka (varBytes d) = .ok (r, m')) (hr : 0 ≤ r) (hm : m.Whole) : m'.Whole := by
  unfold InMeta.add at h
  split at h
  · split at h
    · cases h; exact hm
    · dsimp only at h
      split at h
      · cases h
      · split at h
        · cases h; exact hm
        · revert h
          cases (({} : Tx).fromStream { bytes := (varBytes d).drop (dataPos (varBytes d)) }).1.hash with
          | ub => intro h; cases h
          | ok x =>
            rw [C.bind_ok]
            intro h
            split at h
            · cases h; exact hm
            · split at h
              · cases h; exact hm
              · cases h
                refine ⟨?_, hm.redeem, hm.witness⟩
                show (Script.assign _ _).status = _
                unfold Script.assign Script.clear
                dsimp only
                repeat' split
                all_goals rfl
  split at h
  · split at h
    · cases h; exact hm
    · dsimp only at h
      split at h
      · cases h
      · cases h
        refine ⟨?_, hm.redeem, hm.witness⟩
        have hq := TxOut.fromStream_done m.txOut { bytes := (varBytes d).drop (dataPos (varBytes d)) } (fun _ => hm.spk)
        apply hq
        by_contra hn
        rw [if_pos hn] at hr
        omega
  split at h
  · split at h
    · cases h; exact hm
    · dsimp only at h
      repeat' split at h
      all_goals first | cases h; done | (cases h; exact ⟨hm.spk, hm.redeem, hm.witness⟩)
  split at h
  · split at h
    · cases h; exact hm
    · dsimp only at h
      split at h
      · cases h
      · rename_i hu
        cases h
        exact ⟨hm.spk, hm.redeem.parse d hd hu, hm.witness⟩
  split at h
  · split at h
    · cases h; exact hm
    · dsimp only at h
      split at h
      · cases h
      · rename_i hu
        cases h
        exact ⟨hm.spk, hm.redeem, hm.witness.parse d hd hu⟩
  split at h
  · revert h
    cases h1 : addDerivation junk m.derivations ka (varBytes d) with
    | ub => intro h; cases h
    | ok x =>
      obtain ⟨r', ds⟩ := x
      intro h
      cases h
      exact ⟨hm.spk, hm.redeem, hm.witness⟩
  · cases h; exact hm

theorem OutMeta.add_whole {junk : Bytes} {m m' : OutMeta} {code : UInt8} {ka d : Bytes} {r : Int} (hd : d.length < 2 ^ 64)
    (h : m.add junk code ka (varBytes d) = .ok (r, m')) (hm : m.Whole) : m'.Whole := by
  unfold OutMeta.add at h
  split at h
  · split at h
    · cases h; exact hm
    · dsimp only at h
      split at h
      · cases h
      · rename_i hu
        cases h
        exact ⟨hm.redeem.parse d hd hu, hm.witness⟩
  split at h
  · split at h
    · cases h; exact hm
    · dsimp only at h
      split at h
      · cases h
      · rename_i hu
        cases h
        exact ⟨hm.redeem, hm.witness.parse d hd hu⟩
  split at h
  · revert h
    cases h1 : addDerivation junk m.derivations ka (varBytes d) with
    | ub => intro h; cases h
    | ok x =>
      obtain ⟨r', ds⟩ := x
      intro h
      cases h
      exact ⟨hm.redeem, hm.witness⟩
  · cases h; exact hm

namespace PSBT

/-- Metadata for exactly the inputs and outputs, all of it initialised and complete. -/
structure Rich (p : PSBT) : Prop extends p.Sane where
  tx : p.tx.Sound
  txDone : p.tx.status = .done
  inWhole : ∀ m ∈ p.ins, m.Whole
  outWhole : ∀ m ∈ p.outs, m.Whole

theorem Rich.of {p q : PSBT} (h : p.Rich) (h1 : q.tx = p.tx) (h2 : q.ins = p.ins) (h3 : q.outs = p.outs) : q.Rich :=
  ⟨sane_of h.toSane h1 h2 h3, by rw [h1]; exact h.tx, by rw [h1]; exact h.txDone, by rw [h2]; exact h.inWhole, by rw [h3]; exact h.outWhole⟩

/-- What holds of every object between two calls, whatever has been parsed. -/
structure Inv (p : PSBT) : Prop where
  tx : p.tx.Sound
  fill : (p.ins.length = p.tx.txIns.length ∧ p.outs.length = p.tx.txOuts.length) ∨ (p.ins = [] ∧ p.outs = [])
  key : p.key.Within
  value : p.value.Within
  done : p.status = .done → p.Rich
  run : p.status = .incomplete → 5 < p.lastKeyPos → p.Rich ∧ ¬ (p.sec = p.sections ∧ p.sections > 0)
  early : p.status = .incomplete → ¬ 5 < p.lastKeyPos → p.ins = [] ∧ p.outs = []

theorem Inv.null : ({} : PSBT).Inv where
  tx := Tx.Sound.null
  fill := Or.inl ⟨rfl, rfl⟩
  key := Script.Within.of_ne (by simp)
  value := Script.Within.of_ne (by simp)
  done := fun _ => ⟨sane_fresh, Tx.Sound.null, rfl, fun _ h => (by cases h), fun _ h => (by cases h)⟩
  run := fun h => by cases h
  early := fun h => by cases h

end PSBT
end UB
