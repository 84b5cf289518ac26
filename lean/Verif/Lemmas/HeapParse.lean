import Verif.Lemmas.HeapScript
import Verif.Props.Serialize

/-! `push(const Script)` and `from_stream` of `Script` objects on the heap. -/

namespace UB
open Heap Spec

theorem Ser.emit_take (s : Ser) (arr : Bytes) (l n off : Nat) : s.emit (arr.take n) l (l + n) off = s.emit arr l (l + n) off ∨ arr.length < n := by
  by_cases hn : arr.length < n
  · exact Or.inr hn
  · left
    unfold Ser.emit
    dsimp only
    split
    · rfl
    · split
      · rfl
      · rename_i h0 hp
        have hr : s.room (l + n - (s.out.length + off)) ≤ l + n - (s.out.length + off) := by
          unfold Ser.room
          split
          · exact Nat.le_refl _
          · exact Nat.min_le_right _ _
        have e : load (arr.take n) (s.out.length + off - l) (s.room (l + n - (s.out.length + off))) =
            load arr (s.out.length + off - l) (s.room (l + n - (s.out.length + off))) := by
          unfold load
          rw [if_pos (by simp only [List.length_take]; omega), if_pos (by omega), List.drop_take, List.take_take]
          congr 2
          omega
        rw [e]

/-- A script serializes to the first `scriptLen` bytes of its block, behind their number. -/
theorem Script.Fits.toStream {v : Script} (hf : v.Fits) (cap : Option Nat) (off : Nat) :
    v.toStream cap off = .ok (window cap off (varBytes v.bytes)) := by
  have e : v.toStream cap off = ({ v with arr := v.bytes } : Script).toStream cap off := by
    unfold Script.toStream Script.bytes
    dsimp only
    congr 1
    funext x
    congr 1
    funext y
    rcases Ser.emit_take y v.arr (lenVarIntN v.scriptLen) v.scriptLen off with e | e
    · rw [e]
    · exact absurd hf.1 (by omega)
  rw [e]
  have hl : v.bytes.length = v.scriptLen := by simp [Script.bytes, hf.1]
  exact Script.toStream_eq ({ v with arr := v.bytes } : Script) v.bytes ⟨hl.symm, rfl⟩ (by rw [hl]; exact hf.2) cap off

theorem Script.Fits.bytes_length {v : Script} (hf : v.Fits) : v.bytes.length = v.scriptLen := by simp [Script.bytes, hf.1]

theorem Script.Fits.length_eq {v : Script} (hf : v.Fits) : v.scriptLen + lenVarIntN v.scriptLen = (varBytes v.bytes).length := by
  rw [lenVarIntN_eq _ hf.2]
  simp [varBytes, hf.bytes_length]
  omega

theorem Script.Fits.serialize {v : Script} (hf : v.Fits) :
    UB.serialize v.toStream v.length 0 .raw = .ok ((varBytes v.bytes).length, varBytes v.bytes) := by
  rw [serialize_eq _ _ hf.toStream, show v.length = _ from hf.length_eq]
  simp [serialized]

namespace HScript

theorem ser_ok {h : Heap} {v : Script} {p : Nat} (a : At h p v.arr) (hf : v.Fits) :
    (of v p).ser h = .ok ((varBytes v.bytes).length, varBytes v.bytes) := by
  have e : h.read p 0 v.scriptLen = .ok v.bytes := by
    by_cases h0 : v.scriptLen = 0
    · simp [Heap.read, h0, Script.bytes]
    · have := hf.1
      exact read_all (a.block (by rintro e; simp [e] at this; omega)) hf.1
  unfold ser
  show (do let bs ← h.read p 0 v.scriptLen; _) = _
  rw [e, C.bind_ok]
  have hf' : ({ scriptLen := v.scriptLen, arr := v.bytes } : Script).Fits := ⟨by simp [hf.bytes_length], hf.2⟩
  have := hf'.serialize
  have eb : ({ scriptLen := v.scriptLen, arr := v.bytes } : Script).bytes = v.bytes := by
    simp [Script.bytes]
  rw [eb] at this
  exact this

theorem varBytes_ne (d : Bytes) : varBytes d ≠ [] := by
  intro e
  have := congrArg List.length e
  simp only [varBytes, List.length_append, List.length_nil] at this
  rcases compactSize_length d.length with h | h | h | h <;> omega

/-- The copy of the argument and the temporary block of the two functions `push(const Script)`, up to the use of the temporary:
either there is no memory for it, or it holds the serialization. -/
theorem temp_ok {h : Heap} (w : h.Wf) {vo : Script} {po : Nat} (ao : At h po vo.arr) (ho : vo.Fits) :
    ∃ va pa h1, (of vo po).copy h = .ok (of va pa, h1) ∧ At h1 pa va.arr ∧ va.Fits ∧ Step h h1 ∅ (own pa) ∧
      (h.Generous → vo.scriptLen < 2 ^ 62 → va.bytes = vo.bytes ∧ va.scriptLen = vo.scriptLen) ∧
      (((h1.calloc (va.scriptLen + lenVarIntN va.scriptLen)).1 = 0 ∧ Step h1 (h1.calloc (va.scriptLen + lenVarIntN va.scriptLen)).2 ∅ ∅ ∧
          ¬ (h.Generous ∧ vo.scriptLen < 2 ^ 62)) ∨
        ((h1.calloc (va.scriptLen + lenVarIntN va.scriptLen)).1 ≠ 0 ∧
          (of va pa).ser (h1.calloc (va.scriptLen + lenVarIntN va.scriptLen)).2 = .ok ((varBytes va.bytes).length, varBytes va.bytes) ∧
          ∃ h3, (h1.calloc (va.scriptLen + lenVarIntN va.scriptLen)).2.write (h1.calloc (va.scriptLen + lenVarIntN va.scriptLen)).1 0 (varBytes va.bytes) = .ok h3 ∧
            h3.blocks (h1.calloc (va.scriptLen + lenVarIntN va.scriptLen)).1 = some (varBytes va.bytes) ∧
            h3.read (h1.calloc (va.scriptLen + lenVarIntN va.scriptLen)).1 0 (va.scriptLen + lenVarIntN va.scriptLen) = .ok (varBytes va.bytes) ∧
            Step h1 h3 ∅ (own (h1.calloc (va.scriptLen + lenVarIntN va.scriptLen)).1))) := by
  obtain ⟨va, pa, h1, ec, aa, hfa, s1, hg, -⟩ := copy_ok w ao ho
  refine ⟨va, pa, h1, ec, aa, hfa, s1, ?_, ?_⟩
  · intro g hl
    rw [hg g (by omega)]
    unfold Script.copy Script.bytes
    split
    · have := ho.1
      simp
    · rename_i h0
      have : vo.scriptLen = 0 := by omega
      simp [this]
  · rw [hfa.length_eq]
    rcases calloc_fill s1.wf (varBytes va.bytes) with ⟨hp, s, hd⟩ | ⟨hp, hd, h3, ew, hb, s⟩
    · left
      refine ⟨hp, s, fun ⟨g, hl⟩ => ?_⟩
      have hva : va.scriptLen < 2 ^ 62 := by
        rw [hg g (by omega)]
        unfold Script.copy
        split
        · exact hl
        · simp
      have hlen := hfa.length_eq
      have h9 : lenVarIntN va.scriptLen ≤ 9 := by
        rw [lenVarIntN_eq _ hfa.2]
        rcases compactSize_length va.scriptLen with h | h | h | h <;> omega
      have hne : 0 < (varBytes va.bytes).length := List.length_pos_iff.2 (varBytes_ne _)
      have := ((s1.generous g) _ _ hne).1 hd
      omega
    · right
      obtain ⟨-, -, s0⟩ := calloc_granted s1.wf hd
      refine ⟨hp, ?_, h3, ew, hb, ?_, s⟩
      · exact ser_ok (aa.keep s0 s1.wf (by simp)) hfa
      · rw [read_all hb (Nat.le_refl _), List.take_length]

/-- Script.cpp:470-478: with memory for it, `tmp` is lost. -/
theorem pushScript_ok {h : Heap} (w : h.Wf) {v vo : Script} {p po : Nat} (a : At h p v.arr) (hv : v.Fits) (ao : At h po vo.arr) (ho : vo.Fits) :
    ∃ v' p' r h' E, (of v p).pushScript (of vo po) h = .ok (of v' p', r, h') ∧ At h' p' v'.arr ∧ v'.Fits ∧ Moves h h' p p' E ∧
      (h.Generous → vo.scriptLen < 2 ^ 62 → v.pushScript vo = .ok (v', r) ∧
        ((v.scriptLen = 0 → p = 0) → ∃ t, E = {t} ∧ h'.blocks t = some (varBytes vo.bytes))) ∧
      ((v.scriptLen = 0 → p = 0) → v'.scriptLen = 0 → p' = 0) := by
  obtain ⟨va, pa, h1, ec, aa, hfa, s1, hg, hcase⟩ := temp_ok w ao ho
  have e0 : (of v p).pushScript (of vo po) h = (do
      let (tmp, h) := h1.calloc (va.scriptLen + lenVarIntN va.scriptLen)
      if tmp = 0 then
        let h ← (of va pa).destroy h
        return (of v p, 0, h)
      else
        let (_, bs) ← (of va pa).ser h
        let h ← h.write tmp 0 bs
        let bs ← h.read tmp 0 (va.scriptLen + lenVarIntN va.scriptLen)
        let (sc, _, h) ← (of v p).pushData bs h
        let h ← (of va pa).destroy h
        return (sc, sc.scriptLen, h)) := by
    unfold pushScript
    rw [ec, C.bind_ok]
    rfl
  rw [e0]
  rcases hcase with ⟨hp, s2, hng⟩ | ⟨hp, eser, h3, ew, hb3, er, s3⟩
  · obtain ⟨h', ed, s4⟩ := destroy_ok s2.wf (aa.keep s2 s1.wf (by simp))
    refine ⟨v, p, 0, h', ∅, ?_, ?_, hv, ?_, fun g hl => absurd ⟨g, hl⟩ hng, fun t e => t e⟩
    · dsimp only
      rw [if_pos hp, ed, C.bind_ok]
      rfl
    · have a2 := (a.keep s1 w (by simp)).keep s2 s1.wf (by simp)
      refine a2.keep s4 s2.wf ?_
      intro q hq hc
      exact fresh_disjoint w s1 a q hc hq
    · have m : Moves h1 (h1.calloc (va.scriptLen + lenVarIntN va.scriptLen)).2 p p ∅ := by
        refine .ofStep ?_
        have := s2.frame s1.wf (own p) (by simp) (a.keep s1 w (by simp)).owned
        simpa using this
      exact Moves.around w s1 a m s4
  · have a1 := a.keep s1 w (by simp)
    have a3 := a1.keep s3 s1.wf (by simp)
    obtain ⟨v', p', r, h4, E, ep, a4, hf4, m4, t4, g4, z4⟩ := pushData_ok s3.wf a3 hv (varBytes va.bytes)
    have aa3 := aa.keep s3 s1.wf (by simp)
    have hdis : ∀ q ∈ own pa, q ∉ own p := fresh_disjoint w s1 a
    have aa4 := aa3.keep m4.1 s3.wf hdis
    obtain ⟨h', ed, s5⟩ := destroy_ok m4.1.wf aa4
    have ml := Moves.leak s1.wf s3 a1 m4
    have mt := Moves.around w s1 a ml s5
    have hkeep : ∀ q b, q ∉ own pa → h4.blocks q = some b → h'.blocks q = some b := fun q b hq hb => s5.keep m4.1.wf hq hb
    have hE : ∀ q, q ∈ own p' ∪ (E ∪ own (h1.calloc (va.scriptLen + lenVarIntN va.scriptLen)).1) → q ∉ own pa := by
      intro q hq hc
      cases hb : h1.blocks q with
      | none => exact s1.live q hc hb
      | some b => exact ml.1.notIn s1.wf (hdis q hc) hb hq
    refine ⟨v', p', v'.scriptLen, h', _, ?_, ?_, hf4, mt, ?_, ?_⟩
    · dsimp only
      rw [if_neg hp, eser, C.bind_ok]
      dsimp only
      rw [ew, C.bind_ok, er, C.bind_ok, ep, C.bind_ok]
      dsimp only
      rw [ed, C.bind_ok]
      rfl
    · exact a4.keep s5 m4.1.wf fun q hq => hE q (Finset.mem_union_left _ hq)
    · intro g hl
      obtain ⟨hvb, hvl⟩ := hg g hl
      have gv := g4 (s3.generous (s1.generous g))
      refine ⟨?_, fun t => ⟨(h1.calloc (va.scriptLen + lenVarIntN va.scriptLen)).1, ?_, ?_⟩⟩
      · unfold Script.pushScript
        rw [ho.serialize, C.bind_ok]
        dsimp only
        rw [← hvb, ← gv]
        rfl
      · rw [t4 t, Finset.empty_union, own_pos hp]
      · rw [← hvb]
        refine hkeep _ _ (hE _ (Finset.mem_union_right _ (Finset.mem_union_right _ (mem_own.2 ⟨rfl, hp⟩)))) ?_
        refine m4.1.keep s3.wf ?_ hb3
        intro hc
        exact fresh_disjoint s1.wf s3 a1 _ (mem_own.2 ⟨rfl, hp⟩) hc
    · intro t e
      rcases z4 (varBytes_ne _) e with e | e
      · exact e
      · rw [e.1]; exact t e.2

end HScript

/-- The loop reading length bytes. -/
theorem lenLoop_facts : ∀ (fuel len pos : Nat) (s : PStream) (len' pos' : Nat) (s' : PStream),
    lenLoop fuel len pos s = some (len', pos', s') → len < 2 ^ 64 →
    pos ≤ pos' ∧ pos' ≤ pos + fuel ∧ len' < 2 ^ 64 ∧ (pos' < pos + fuel → s'.avail = false) ∧ (fuel = 0 → len' = len ∧ s' = s) := by
  intro fuel
  induction fuel with
  | zero =>
    intro len pos s len' pos' s' h hl
    simp only [lenLoop, Option.some.injEq, Prod.mk.injEq] at h
    obtain ⟨rfl, rfl, rfl⟩ := h
    exact ⟨Nat.le_refl _, by omega, hl, by omega, fun _ => ⟨rfl, rfl⟩⟩
  | succ fuel ih =>
    intro len pos s len' pos' s' h hl
    rw [lenLoop] at h
    by_cases ha : s.avail = true
    · rw [if_pos ha] at h
      rcases hr : s.read with ⟨b, s1⟩
      rw [hr] at h
      cases b with
      | none => simp at h
      | some b =>
        dsimp only at h
        split at h
        · cases h
        · cases hi : intShl b (8 * (pos - 1)) with
          | none => rw [hi] at h; cases h
          | some v =>
            rw [hi] at h
            obtain ⟨h1, h2, h3, h4, -⟩ := ih _ _ _ _ _ _ h (Nat.mod_lt _ (by norm_num))
            exact ⟨by omega, by omega, h3, fun e => h4 (by omega), by omega⟩
    · rw [if_neg ha] at h
      simp only [Option.some.injEq, Prod.mk.injEq] at h
      obtain ⟨rfl, rfl, rfl⟩ := h
      exact ⟨Nat.le_refl _, by omega, hl, fun _ => by simpa using ha, by omega⟩

theorem readN_length_le (s : PStream) (n : Nat) : (s.readN n).1.length ≤ n := by
  unfold PStream.readN
  simp only [List.length_append, List.length_take]
  split
  · simp only [List.length_replicate]; omega
  · simp only [List.length_nil]; omega

theorem readN_none (s : PStream) (n : Nat) (h : s.avail = false) : (s.readN n).1 = [] := by
  unfold PStream.avail at h
  simp only [Bool.or_eq_false_iff, Bool.not_eq_false', List.isEmpty_iff] at h
  unfold PStream.readN
  simp [h.1, h.2]

namespace HScript

theorem start_ok {h : Heap} (w : h.Wf) {v : Script} {p : Nat} (a : At h p v.arr) (hv : v.Sized) :
    ∃ p' h', (of v p).start h = .ok (of v.start p', h') ∧ At h' p' v.start.arr ∧ Step h h' (own p) (own p') ∧
      (v.status = .done → 0 < v.scriptLen → p' = 0) ∧ (¬ (v.status = .done ∧ 0 < v.scriptLen) → p' = p) := by
  by_cases hd : v.status = .done
  · have hl : v.scriptLen ≤ v.arr.length := hv.1 (by simp [hd])
    obtain ⟨p', h', e, a', s, hp0, hpp⟩ := clear_ok w (v := { v with bytesParsed := 0 }) a hl
    have es : v.start = { ({ v with bytesParsed := 0 } : Script).clear with status := .incomplete } := by
      unfold Script.start
      rw [if_pos hd]
    refine ⟨p', h', ?_, by rw [es]; exact a', s, fun _ h0 => hp0 h0, fun hn => (hpp ?_).1⟩
    · unfold start
      rw [if_pos (show (of v p).status = .done from hd)]
      show (do let (sc, h) ← (of { v with bytesParsed := 0 } p).clear h; _) = _
      rw [e, C.bind_ok, es]
      rfl
    · show v.scriptLen = 0
      by_contra hc
      exact hn ⟨hd, by omega⟩
  · have es : v.start = { v with status := .incomplete } := by
      unfold Script.start
      rw [if_neg hd]
    refine ⟨p, h, ?_, by rw [es]; exact a, Step.refl w a.owned, fun e => absurd e hd, fun _ => rfl⟩
    unfold start
    rw [if_neg (show ¬ (of v p).status = .done from hd), es, C.pure_eq, C.bind_ok]
    rfl

theorem start_sized {v : Script} (hv : v.Sized) :
    v.start.status = .incomplete ∧ (v.start.lenLen ≤ v.start.bytesParsed → v.start.scriptLen ≤ v.start.arr.length) ∧ v.start.scriptLen < 2 ^ 64 := by
  unfold Script.start
  by_cases hd : v.status = .done
  · rw [if_pos hd]
    have hl : v.scriptLen ≤ v.arr.length := hv.1 (by simp [hd])
    unfold Script.clear
    split
    · exact ⟨rfl, fun _ => Nat.le_refl 0, by simp⟩
    · exact ⟨rfl, fun _ => hl, hv.2⟩
  · rw [if_neg hd]
    refine ⟨rfl, fun hl => hv.1 (fun e => ?_), hv.2⟩
    have : v.lenLen ≤ v.bytesParsed := hl
    omega

/-- Script.cpp:275-290. -/
theorem readPrefix_ok {h : Heap} (w : h.Wf) {v : Script} {p : Nat} (a : At h p v.arr) (hst : v.status = .incomplete)
    (hl : v.lenLen ≤ v.bytesParsed → v.scriptLen ≤ v.arr.length) (h64 : v.scriptLen < 2 ^ 64) (s : PStream) :
    ∃ v' p' h' br s' E, (of v p).readPrefix h s = (of v' p', br, s', h') ∧ At h' p' v'.arr ∧ Moves h h' p p' E ∧
      ((s.avail = true ∧ v.bytesParsed = 0 → p = 0) → E = ∅) ∧
      ((v'.status = .failed ∧ v'.scriptLen = 0 ∧ ¬ h.Generous) ∨
       (v'.status = .incomplete ∧ v'.scriptLen = (v.readPrefix s).1.scriptLen ∧ v'.lenLen = (v.readPrefix s).1.lenLen ∧
        v'.bytesParsed = (v.readPrefix s).1.bytesParsed ∧ br = (v.readPrefix s).2.1 ∧ s' = (v.readPrefix s).2.2 ∧
        (v'.lenLen ≤ v'.bytesParsed + br → v'.scriptLen ≤ v'.arr.length) ∧ v'.scriptLen < 2 ^ 64 ∧
        (h.Generous → v' = (v.readPrefix s).1))) := by
  by_cases hc : s.avail = true ∧ v.bytesParsed = 0
  · rcases hb : s.readByte with ⟨b, s1⟩
    have ehp : (of v p).readPrefix h s = if b < 0xfd then
          (let (p', h) := if b.toNat > 0 then h.calloc b.toNat else (p, h)
          if p' = 0 ∧ b.toNat > 0 then ({ of v p with lenLen := 1, ptr := p', status := .failed, scriptLen := 0 }, 0, s1, h)
          else ({ of v p with lenLen := 1, ptr := p', scriptLen := b.toNat }, 1, s1, h))
        else
          (let (p', h) := h.calloc 255
          ({ of v p with scriptLen := 0, lenLen := 1 + 2 ^ (b.toNat - 0xfc), ptr := p' }, 1, s1, h)) := by
      unfold readPrefix
      rw [if_pos (show s.avail = true ∧ (of v p).bytesParsed = 0 from hc), hb]
      rfl
    have evp : v.readPrefix s = if b < 0xfd then
          ({ v with scriptLen := b.toNat, lenLen := 1, arr := if b = 0 then v.arr else zeros b.toNat }, 1, s1)
        else ({ v with scriptLen := 0, lenLen := 1 + 2 ^ (b.toNat - 0xfc), arr := zeros 255 }, 1, s1) := by
      unfold Script.readPrefix
      rw [if_pos hc, hb]
    rw [ehp, evp]
    by_cases hlt : b < 0xfd
    · rw [if_pos hlt, if_pos hlt]
      by_cases h0 : b.toNat > 0
      · have hb0 : b ≠ 0 := by rintro rfl; simp at h0
        rw [if_pos h0, if_neg hb0]
        cases hd : h.denies h.next b.toNat with
        | true =>
          obtain ⟨e, st⟩ := calloc_denied w hd
          refine ⟨{ v with lenLen := 1, status := .failed, scriptLen := 0, arr := [] }, 0, (h.calloc b.toNat).2, 0, s1, own p, ?_, at_null _,
            Moves.drop w a (by simpa using st), fun t => by rw [t hc]; rfl, Or.inl ⟨rfl, rfl, fun g => ?_⟩⟩
          · dsimp only
            rw [if_pos ⟨e, h0⟩, e]
            rfl
          · have := (g _ _ h0).1 hd
            have := b.toNat_lt
            omega
        | false =>
          obtain ⟨e, hbl, st⟩ := calloc_granted w hd
          refine ⟨{ v with lenLen := 1, scriptLen := b.toNat, arr := zeros b.toNat }, (h.calloc b.toNat).1, (h.calloc b.toNat).2, 1, s1, own p, ?_,
            Or.inr hbl, Moves.drop w a st, fun t => by rw [t hc]; rfl, Or.inr ⟨hst, rfl, rfl, rfl, rfl, rfl, fun _ => by simp, ?_, fun _ => rfl⟩⟩
          · dsimp only
            rw [if_neg (fun c => e c.1)]
            rfl
          · have := b.toNat_lt
            simp only
            omega
      · have hb0 : b = 0 := UInt8.toNat.inj (by simp; omega)
        rw [if_neg h0, if_pos hb0]
        refine ⟨{ v with lenLen := 1, scriptLen := b.toNat }, p, h, 1, s1, ∅, ?_, a, Moves.refl w a, fun _ => rfl,
          Or.inr ⟨hst, rfl, rfl, rfl, rfl, rfl, fun _ => ?_, ?_, fun _ => rfl⟩⟩
        · dsimp only
          rw [if_neg (fun c => h0 c.2)]
          rfl
        · simp only
          omega
        · simp only
          omega
    · rw [if_neg hlt, if_neg hlt]
      have hbig : 253 ≤ b.toNat := by
        have : ¬ b.toNat < 253 := fun e => hlt e
        omega
      have hpow : 2 ≤ 2 ^ (b.toNat - 0xfc) := by
        calc 2 = 2 ^ 1 := rfl
          _ ≤ _ := Nat.pow_le_pow_right (by omega) (by omega)
      have hbp : v.bytesParsed = 0 := hc.2
      cases hd : h.denies h.next 255 with
      | true =>
        obtain ⟨e, st⟩ := calloc_denied w hd
        refine ⟨{ v with scriptLen := 0, lenLen := 1 + 2 ^ (b.toNat - 0xfc), arr := [] }, 0, (h.calloc 255).2, 1, s1, own p, ?_, at_null _,
          Moves.drop w a (by simpa using st), fun t => by rw [t hc]; rfl, Or.inr ⟨hst, rfl, rfl, rfl, rfl, rfl, fun _ => Nat.le_refl 0, by simp, fun g => ?_⟩⟩
        · dsimp only
          rw [e]
          rfl
        · exact absurd ((g _ _ (by omega)).1 hd) (by omega)
      | false =>
        obtain ⟨e, hbl, st⟩ := calloc_granted w hd
        exact ⟨{ v with scriptLen := 0, lenLen := 1 + 2 ^ (b.toNat - 0xfc), arr := zeros 255 }, (h.calloc 255).1, (h.calloc 255).2, 1, s1, own p, rfl,
          Or.inr hbl, Moves.drop w a st, fun t => by rw [t hc]; rfl, Or.inr ⟨hst, rfl, rfl, rfl, rfl, rfl, fun _ => Nat.zero_le _, by simp, fun _ => rfl⟩⟩
  · have ehp : (of v p).readPrefix h s = (of v p, 0, s, h) := by
      unfold readPrefix
      rw [if_neg (show ¬ (s.avail = true ∧ (of v p).bytesParsed = 0) from hc)]
    have evp : v.readPrefix s = (v, 0, s) := by
      unfold Script.readPrefix
      rw [if_neg hc]
    rw [ehp, evp]
    exact ⟨v, p, h, 0, s, ∅, rfl, a, Moves.refl w a, fun _ => rfl, Or.inr ⟨hst, rfl, rfl, rfl, rfl, rfl, hl, h64, fun _ => rfl⟩⟩

/-- Script.cpp:295-299. -/
theorem swap_ok {h : Heap} (w : h.Wf) {v : Script} {p : Nat} (a : At h p v.arr) (hst : v.status = .incomplete) (br : Nat)
    (hl : v.lenLen < v.bytesParsed + br → v.scriptLen ≤ v.arr.length) :
    ∃ v' p' h', (of v p).swap br h = .ok (of v' p', h') ∧ At h' p' v'.arr ∧ Step h h' (own p) (own p') ∧
      ((v'.status = .failed ∧ v' = { v with status := .failed, scriptLen := 0, arr := [] } ∧
          (h.Generous → v.bytesParsed + br = v.lenLen ∧ v.scriptLen > 0 ∧ v.scriptLen ≥ 2 ^ 63)) ∨
       (v'.status = .incomplete ∧ v'.scriptLen = v.scriptLen ∧ (v.lenLen ≤ v.bytesParsed + br → v'.scriptLen ≤ v'.arr.length) ∧
        v' = (if v.bytesParsed + br = v.lenLen ∧ v.scriptLen > 0 then { v with arr := zeros v.scriptLen } else v) ∧
          (h.Generous → ¬ (v.bytesParsed + br = v.lenLen ∧ v.scriptLen > 0 ∧ v.scriptLen ≥ 2 ^ 63)))) := by
  by_cases hc : v.bytesParsed + br = v.lenLen ∧ v.scriptLen > 0
  · obtain ⟨h1, ef, s1⟩ := free_ok w a.live
    have esw : (of v p).swap br h = (do
        let h ← h.free p
        let (p', h) := h.calloc v.scriptLen
        if p' = 0 then return (of { v with status := .failed, scriptLen := 0, arr := [] } p', h)
        else return (of { v with arr := [] } p', h)) := by
      unfold swap
      rw [if_pos (show (of v p).bytesParsed + br = (of v p).lenLen ∧ (of v p).scriptLen > 0 from hc)]
      rfl
    rw [esw, ef, C.bind_ok]
    dsimp only
    cases hd : h1.denies h1.next v.scriptLen with
    | true =>
      obtain ⟨e, st⟩ := calloc_denied s1.wf hd
      refine ⟨{ v with status := .failed, scriptLen := 0, arr := [] }, 0, (h1.calloc v.scriptLen).2, ?_, at_null _, by simpa using s1.trans st,
        Or.inl ⟨rfl, rfl, fun g => ⟨hc.1, hc.2, ((s1.generous g) _ _ hc.2).1 hd⟩⟩⟩
      rw [if_pos e, e]
      rfl
    | false =>
      obtain ⟨e, hbl, st⟩ := calloc_granted s1.wf hd
      refine ⟨{ v with arr := zeros v.scriptLen }, (h1.calloc v.scriptLen).1, (h1.calloc v.scriptLen).2, ?_, Or.inr hbl, s1.trans st,
        Or.inr ⟨hst, rfl, fun _ => by simp, by rw [if_pos hc], fun g => ?_⟩⟩
      · rw [if_neg e]
        rfl
      · rintro ⟨-, -, h63⟩
        have := ((s1.generous g) h1.next _ hc.2).2 h63
        rw [hd] at this
        cases this
  · refine ⟨v, p, h, ?_, a, Step.refl w a.owned, Or.inr ⟨hst, rfl, fun hle => ?_, by rw [if_neg hc], fun _ c => hc ⟨c.1, c.2.1⟩⟩⟩
    · unfold swap
      rw [if_neg (show ¬ ((of v p).bytesParsed + br = (of v p).lenLen ∧ (of v p).scriptLen > 0) from hc)]
      rfl
    · by_cases he : v.bytesParsed + br = v.lenLen
      · have : v.scriptLen = 0 := by
          by_contra hh
          exact hc ⟨he, by omega⟩
        omega
      · exact hl (by omega)

/-- Script.cpp:305-314. -/
theorem readBody_ok {h : Heap} (w : h.Wf) {v : Script} {p : Nat} (a : At h p v.arr) (hst : v.status = .incomplete) (br : Nat) (s : PStream)
    (hl : v.lenLen ≤ v.bytesParsed + br → v.scriptLen ≤ v.arr.length) (ha : v.bytesParsed + br < v.lenLen → s.avail = false)
    (h64 : v.scriptLen < 2 ^ 64) :
    ∃ v' p' r s' h', (of v p).readBody br s h = .ok (of v' p', r, s', h') ∧ v.readBody br s = (v', r, s') ∧ At h' p' v'.arr ∧
      Step h h' (own p) (own p') ∧ v'.Sized ∧ v'.status ≠ .ub := by
  rcases hr : s.readN (v.scriptLen + v.lenLen - (v.bytesParsed + br)) with ⟨bs, s1⟩
  have hlen : bs.length ≤ v.scriptLen + v.lenLen - (v.bytesParsed + br) := by
    have := readN_length_le s (v.scriptLen + v.lenLen - (v.bytesParsed + br))
    rwa [hr] at this
  have hemp : v.bytesParsed + br < v.lenLen → bs = [] := fun hlt => by
    have := readN_none s (v.scriptLen + v.lenLen - (v.bytesParsed + br)) (ha hlt)
    rwa [hr] at this
  have hw : ∃ arr', writeAt v.arr (v.bytesParsed + br - v.lenLen) bs = some arr' ∧ arr'.length = v.arr.length := by
    by_cases he : bs = []
    · exact ⟨v.arr, by simp [writeAt, he], rfl⟩
    · have h1 : ¬ v.bytesParsed + br < v.lenLen := fun hlt => he (hemp hlt)
      have h2 := hl (by omega)
      have h3 : 0 < bs.length := List.length_pos_iff.2 he
      have hfit : v.bytesParsed + br - v.lenLen + bs.length ≤ v.arr.length := by omega
      refine ⟨_, by rw [writeAt, if_neg he, if_pos hfit], ?_⟩
      simp
      omega
  obtain ⟨arr', hw, hlen'⟩ := hw
  have hwr : ∃ h', h.write p (v.bytesParsed + br - v.lenLen) bs = .ok h' ∧ At h' p arr' ∧ Step h h' (own p) (own p) := by
    rcases a with ⟨a1, a2⟩ | a
    · have he : bs = [] := by
        by_contra he
        rw [a2] at hw
        unfold writeAt at hw
        rw [if_neg he] at hw
        split at hw
        · rename_i hc
          have h3 : 0 < bs.length := List.length_pos_iff.2 he
          simp at hc
          exact he hc.2
        · cases hw
      subst he
      refine ⟨h, write_nil _ _ _, ?_, Step.refl w (by simp [a1])⟩
      simp only [writeAt, if_true, Option.some.injEq] at hw
      rw [← hw, a1, a2]
      exact at_null h
    · obtain ⟨h', e, hb, -, st⟩ := write_ok w a hw
      exact ⟨h', e, Or.inr hb, st⟩
  obtain ⟨h', ew, a', st⟩ := hwr
  refine ⟨{ v with arr := arr', status := if v.bytesParsed + (br + bs.length) = v.scriptLen + v.lenLen then .done else v.status, bytesParsed := v.bytesParsed + (br + bs.length) },
    p, br + bs.length, s1, h', ?_, ?_, a', st, ⟨?_, h64⟩, ?_⟩
  · unfold readBody
    dsimp only
    have hr' : s.readN ((of v p).scriptLen + (of v p).lenLen - ((of v p).bytesParsed + br)) = (bs, s1) := hr
    have ew' : h.write (of v p).ptr ((of v p).bytesParsed + br - (of v p).lenLen) bs = .ok h' := ew
    rw [hr']
    dsimp only
    rw [ew', C.bind_ok]
    rfl
  · unfold Script.readBody
    dsimp only
    rw [hr]
    dsimp only
    rw [hw]
  · intro hn
    simp only [hlen']
    apply hl
    by_contra hlt
    have he := hemp (by omega)
    subst he
    apply hn
    simp only [List.length_nil, Nat.add_zero]
    rw [if_neg (by omega)]
    exact ⟨hst, by omega⟩
  · simp only
    split
    · simp
    · simp [hst]

/-- Script.cpp:264-315. -/
theorem fromStream_ok {h : Heap} (w : h.Wf) {v : Script} {p : Nat} (a : At h p v.arr) (hv : v.Sized) (s : PStream)
    (hub : (v.fromStream s).1.status ≠ .ub) :
    ∃ v' p' r s' h' E, (of v p).fromStream s h = .ok (of v' p', r, s', h') ∧ At h' p' v'.arr ∧ v'.Sized ∧ Moves h h' p p' E ∧
      ((v.status = .done → v.scriptLen = 0 → p = 0) ∧ (v.status = .incomplete → v.bytesParsed = 0 → p = 0) → E = ∅) ∧
      (h.Generous → v.fromStream s = (v', r, s')) ∧ v'.status ≠ .ub := by
  by_cases hstop : v.status = .failed ∨ v.status = .ub
  · have ev : v.fromStream s = (v, 0, s) := by
      unfold Script.fromStream
      rw [if_pos hstop]
    rw [ev] at hub
    refine ⟨v, p, 0, s, h, ∅, ?_, a, hv, Moves.refl w a, fun _ => rfl, fun _ => ev, hub⟩
    unfold fromStream
    rw [if_pos (show (of v p).status = .failed ∨ (of v p).status = .ub from hstop)]
    rfl
  · obtain ⟨p1, h1, e1, a1, s1, hp1, hp2⟩ := start_ok w a hv
    obtain ⟨hst1, hl1, h641⟩ := start_sized hv
    obtain ⟨v2, p2, h2, br, s2, E, e2, a2, m2, t2, hcase⟩ := readPrefix_ok s1.wf a1 hst1 hl1 h641 s
    have hE : ((v.status = .done → v.scriptLen = 0 → p = 0) ∧ (v.status = .incomplete → v.bytesParsed = 0 → p = 0) → E = ∅) := by
      rintro ⟨td, ti⟩
      apply t2
      rintro ⟨-, hb⟩
      by_cases hd : v.status = .done
      · by_cases h0 : 0 < v.scriptLen
        · exact hp1 hd h0
        · rw [hp2 (fun c => h0 c.2)]
          exact td hd (by omega)
      · rw [hp2 (fun c => hd c.1)]
        refine ti ?_ ?_
        · cases e : v.status <;> simp_all
        · have : v.start.bytesParsed = v.bytesParsed := by
            unfold Script.start
            rw [if_neg hd]
          omega
    have m12 : Moves h h2 p p2 E := by
      have := (Moves.ofStep s1).trans m2
      rwa [Finset.empty_union] at this
    have eh : (of v p).fromStream s h = if v2.status = .failed then .ok (of v2 p2, 0, s2, h2)
        else match lenLoop (v2.lenLen - (v2.bytesParsed + br)) v2.scriptLen (v2.bytesParsed + br) s2 with
          | none => .ub
          | some (len, pos, s) => (do
            let (sc, h) ← (of { v2 with scriptLen := len } p2).swap (pos - v2.bytesParsed) h2
            if sc.status = .failed then return (sc, 0, s, h)
            else if sc.bytesParsed + (pos - v2.bytesParsed) = sc.lenLen ∧ lenVarIntN sc.scriptLen ≠ sc.lenLen then
              return ({ sc with status := .failed, bytesParsed := sc.bytesParsed + (pos - v2.bytesParsed) }, pos - v2.bytesParsed, s, h)
            else sc.readBody (pos - v2.bytesParsed) s h) := by
      unfold fromStream
      rw [if_neg (show ¬ ((of v p).status = .failed ∨ (of v p).status = .ub) from hstop), e1, C.bind_ok]
      dsimp only
      rw [e2]
      rfl
    rcases hcase with ⟨hf, hz, hng⟩ | ⟨hi, q1, q2, q3, q4, q5, hl2, h642, hg2⟩
    · refine ⟨v2, p2, 0, s2, h2, E, by rw [eh, if_pos hf], a2, ⟨fun _ => by omega, by omega⟩, m12, hE, fun g => absurd (s1.generous g) hng, by simp [hf]⟩
    · rw [if_neg (by simp [hi])] at eh
      have evf : v.fromStream s = match lenLoop (v2.lenLen - (v2.bytesParsed + br)) v2.scriptLen (v2.bytesParsed + br) s2 with
          | none => ({ (v.start.readPrefix s).1 with status := .ub }, 0, s2)
          | some (len, pos, t) => Script.alloc { (v.start.readPrefix s).1 with scriptLen := len } (pos - v2.bytesParsed) t := by
        unfold Script.fromStream
        rw [if_neg hstop, q1, q2, q3, q4, q5]
        rfl
      cases hloop : lenLoop (v2.lenLen - (v2.bytesParsed + br)) v2.scriptLen (v2.bytesParsed + br) s2 with
      | none =>
        rw [evf, hloop] at hub
        simp at hub
      | some r =>
        obtain ⟨len, pos, s3⟩ := r
        rw [hloop] at eh evf
        dsimp only at eh evf
        obtain ⟨f1, f2, f3, f4, f5⟩ := lenLoop_facts _ _ _ _ _ _ _ hloop h642
        have hpos : v2.bytesParsed + (pos - v2.bytesParsed) = pos := by omega
        have hav : v2.bytesParsed + (pos - v2.bytesParsed) < v2.lenLen → s3.avail = false := fun hh => f4 (by omega)
        have hl3 : v2.lenLen < v2.bytesParsed + (pos - v2.bytesParsed) → len ≤ v2.arr.length := by
          intro hh
          have hz : v2.lenLen - (v2.bytesParsed + br) = 0 := by omega
          rw [(f5 hz).1]
          exact hl2 (by omega)
        obtain ⟨v4, p4, h4, e4, a4, s4, hc4⟩ := swap_ok m2.1.wf (v := { v2 with scriptLen := len }) a2 hi (pos - v2.bytesParsed) hl3
        have m14 : Moves h h4 p p4 E := by
          have := m12.trans (Moves.ofStep s4)
          rwa [Finset.union_empty] at this
        rw [e4, C.bind_ok] at eh
        rcases hc4 with ⟨hf4, ev4, hg4⟩ | ⟨hi4, hlen4, hl4, ev4, hg4⟩
        · have eh' : (of v p).fromStream s h = .ok (of v4 p4, 0, s3, h4) := by
            rw [eh]
            exact if_pos hf4
          refine ⟨v4, p4, 0, s3, h4, E, eh', a4, ⟨fun _ => by rw [ev4]; exact Nat.zero_le _, by rw [ev4]; simp⟩, m14, hE, fun g => ?_, by simp [hf4]⟩
          have g1 := s1.generous g
          rw [evf, ← hg2 g1]
          have hc := hg4 (m2.1.generous g1)
          unfold Script.alloc
          rw [if_pos hc, ev4]
        · have eh' : (of v p).fromStream s h = if v4.bytesParsed + (pos - v2.bytesParsed) = v4.lenLen ∧ lenVarIntN v4.scriptLen ≠ v4.lenLen then
              .ok (of { v4 with status := .failed, bytesParsed := v4.bytesParsed + (pos - v2.bytesParsed) } p4, pos - v2.bytesParsed, s3, h4)
            else (of v4 p4).readBody (pos - v2.bytesParsed) s3 h4 := by
            rw [eh]
            refine (if_neg (show ¬ (of v4 p4).status = .failed from by simp [of, hi4])).trans ?_
            rfl
          have eb4 : v4.bytesParsed = v2.bytesParsed := by rw [ev4]; split <;> rfl
          have el4 : v4.lenLen = v2.lenLen := by rw [ev4]; split <;> rfl
          have hs4 : v4.scriptLen = len := hlen4
          have evf' : h.Generous → v.fromStream s = if v4.bytesParsed + (pos - v2.bytesParsed) = v4.lenLen ∧ lenVarIntN v4.scriptLen ≠ v4.lenLen then
                ({ v4 with status := .failed, bytesParsed := v4.bytesParsed + (pos - v2.bytesParsed) }, pos - v2.bytesParsed, s3)
              else v4.readBody (pos - v2.bytesParsed) s3 := by
            intro g
            have g1 := s1.generous g
            rw [evf, ← hg2 g1]
            unfold Script.alloc
            rw [if_neg (hg4 (m2.1.generous g1))]
            dsimp only at ev4 ⊢
            rw [← ev4]
          by_cases hbad : v4.bytesParsed + (pos - v2.bytesParsed) = v4.lenLen ∧ lenVarIntN v4.scriptLen ≠ v4.lenLen
          · rw [if_pos hbad] at eh'
            refine ⟨_, p4, _, s3, h4, E, eh', a4, ⟨fun _ => ?_, by simp only; omega⟩, m14, hE, fun g => by rw [evf' g, if_pos hbad], by simp⟩
            exact hl4 (by simp only; omega)
          · rw [if_neg hbad] at eh'
            obtain ⟨v5, p5, r5, s5, h5, e5, ev5, a5, st5, hz5, hp5⟩ := readBody_ok s4.wf a4 hi4 (pos - v2.bytesParsed) s3
              (fun hle => hl4 (by simp only; omega)) (fun hlt => hav (by omega)) (by omega)
            have m15 : Moves h h5 p p5 E := by
              have := m14.trans (Moves.ofStep st5)
              rwa [Finset.union_empty] at this
            exact ⟨v5, p5, r5, s5, h5, E, eh'.trans e5, a5, hz5, m15, hE, fun g => by rw [evf' g, if_neg hbad, ev5], hp5⟩

end HScript
end UB
