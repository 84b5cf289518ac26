import Verif.Lemmas.HeapPsbt

/-! Parsing PSBT objects on the heap. -/

namespace UB
open Heap Spec

namespace Script

theorem readBody_dry (sc : Script) (br : Nat) {s : PStream} (h : s.avail = false) : (sc.readBody br s).2.2 = s := by
  unfold readBody
  dsimp only
  rw [PStream.readN_none h]
  dsimp only
  split <;> rfl

theorem alloc_dry (sc : Script) (br : Nat) {s : PStream} (h : s.avail = false) : (sc.alloc br s).2.2 = s := by
  unfold alloc
  split
  · rfl
  · by_cases hc : sc.bytesParsed + br = sc.lenLen ∧ sc.scriptLen > 0
    all_goals
      first | rw [if_pos hc] | rw [if_neg hc]
      dsimp only
      split
      · rfl
      · exact readBody_dry _ _ h

/-- Without bytes the stream stays as it is. -/
theorem fromStream_dry (sc : Script) {s : PStream} (h : s.avail = false) : (sc.fromStream s).2.2 = s := by
  unfold fromStream
  split
  · rfl
  · unfold readPrefix
    rw [if_neg (by rw [h]; simp)]
    dsimp only
    split
    · rfl
    · rename_i len pos s' e
      obtain ⟨-, -, -, -, l5⟩ := lenLoop_stops _ _ _ _ e
      rw [(l5 h).2]
      exact alloc_dry _ _ h

end Script

namespace PSBT

/-! ### States of the parser -/

/-- The state at the head of the loop over the pairs. -/
structure Live (p : PSBT) (s : PStream) : Prop where
  status : p.status = .incomplete
  pos : 5 < p.lastKeyPos
  rich : p.Rich
  key : p.key.Within
  value : p.value.Within
  avail : s.avail = true → p.key.status = .done ∧ p.value.status = .done
  last : p.sec = p.sections → p.sections > 0 → p.key.status = .done ∧ p.value.status = .done

/-- The state inside a round. -/
structure Mid (p : PSBT) (s : PStream) : Prop where
  status : p.status = .incomplete
  pos : 5 < p.lastKeyPos
  rich : p.Rich
  key : p.key.Within
  value : p.value.Within
  avail : s.avail = true → p.key.status ≠ .incomplete ∧ p.value.status ≠ .incomplete
  sec : p.sec ≠ p.sections

/-- The state after a round. -/
def Next (x : (PSBT × Nat × PStream) × Bool) : Prop := if x.2 then x.1.1.Inv else x.1.1.Live x.1.2.2

theorem Rich.inv {p : PSBT} (h : p.Rich) (hs : p.status = .failed) (hk : p.key.Within) (hv : p.value.Within) : p.Inv where
  tx := h.tx
  fill := Or.inl ⟨h.ins, h.outs⟩
  key := hk
  value := hv
  done := fun c => by rw [hs] at c; cases c
  run := fun c => by rw [hs] at c; cases c
  early := fun c => by rw [hs] at c; cases c

theorem Live.finish {p : PSBT} {s : PStream} (h : p.Live s) (br : Nat) : (p.finishAll br s).1.Inv := by
  unfold finishAll
  by_cases hc : p.sec = p.sections ∧ p.sections > 0
  · rw [if_pos hc]
    have ha : ∀ k : Script, (k.assign {}).status = .done := by
      intro k
      unfold Script.assign Script.clear
      dsimp only
      repeat' split
      all_goals rfl
    exact {
      tx := h.rich.tx
      fill := Or.inl ⟨h.rich.ins, h.rich.outs⟩
      key := Script.Within.of_ne (by show (p.key.assign {}).status ≠ _; rw [ha]; simp)
      value := Script.Within.of_ne (by show (p.value.assign {}).status ≠ _; rw [ha]; simp)
      done := fun _ => h.rich.of rfl rfl rfl
      run := fun c => by cases c
      early := fun c => by cases c }
  · rw [if_neg hc]
    exact {
      tx := h.rich.tx
      fill := Or.inl ⟨h.rich.ins, h.rich.outs⟩
      key := h.key
      value := h.value
      done := fun c => by
        have : p.status = .done := c
        rw [h.status] at this
        cases this
      run := fun _ _ => ⟨h.rich.of rfl rfl rfl, hc⟩
      early := fun _ c => absurd h.pos c }

end PSBT

namespace HPSBT

theorem core (o : HPSBT) (v : PSBT) : PsbtAt o v = ScriptAt o.key v.key ⋆ ScriptAt o.value v.value ⋆ PsbtCore o v := rfl

/-- The members that are read without looking at the memory. -/
structure Same (o : HPSBT) (v : PSBT) : Prop where
  status : o.status = v.status
  bytes : o.bytesParsed = v.bytesParsed
  sec : o.sec = v.sec
  pos : o.lastKeyPos = v.lastKeyPos
  key : o.key.status = v.key.status
  keyLen : o.key.length = v.key.length
  value : o.value.status = v.value.status
  valueLen : o.value.length = v.value.length
  sections : o.sections = v.sections

theorem same {o : HPSBT} {v : PSBT} {h : Heap} {A : Finset Nat} (a : PsbtAt o v h A) : Same o v := by
  obtain ⟨_, _, ⟨ek, -⟩, ⟨_, _, ⟨ev, -⟩, c, -⟩, -⟩ := a
  obtain ⟨f, _, _, ct, -⟩ := fact_star.1 c
  have ht := HTx.facts ct
  refine ⟨f.1, f.2.1, f.2.2.1, f.2.2.2, by rw [ek]; rfl, by rw [ek]; rfl, by rw [ev]; rfl, by rw [ev]; rfl, ?_⟩
  unfold sections PSBT.sections
  rw [f.2.2.2, ht.2.1, ht.2.2]

theorem parseKey_does (o : HPSBT) (v : PSBT) (br : Nat) (s : PStream) (hub : (v.parseKey br s).1.key.status ≠ .ub) :
    Does (PsbtAt o v) (o.parseKey br s) (fun x => fact (x.2 = (v.parseKey br s).2) ⋆ PsbtAt x.1 (v.parseKey br s).1) := by
  unfold parseKey
  have sk := ScriptAt.stable o.key v.key
  have rest := (ScriptAt.stable o.value v.value).star (PsbtCore.stable o v)
  refine (HScript.parse_does o.key v.key s hub).step sk rest fun x => ?_
  rw [Star.assoc]
  refine Does.fact fun ex => ?_
  obtain ⟨k, n, s'⟩ := x
  refine Does.ret ((ScriptAt.stable _ _).star rest) (fun {h A} a => fact_star.2 ⟨?_, a⟩)
  dsimp only at ex
  obtain ⟨e1, e2⟩ := Prod.mk.inj ex
  subst e1 e2
  rfl

theorem parseValue_does (o : HPSBT) (v : PSBT) (br : Nat) (s : PStream) (hub : (v.parseValue br s).1.value.status ≠ .ub) :
    Does (PsbtAt o v) (o.parseValue br s) (fun x => fact (x.2 = (v.parseValue br s).2) ⋆ PsbtAt x.1 (v.parseValue br s).1) := by
  unfold parseValue
  have sv := ScriptAt.stable o.value v.value
  have rest := (ScriptAt.stable o.key v.key).star (PsbtCore.stable o v)
  refine Does.swap (P := ScriptAt o.value v.value ⋆ (ScriptAt o.key v.key ⋆ PsbtCore o v)) ?_ (by rw [core]; ac_rfl)
  refine (HScript.parse_does o.value v.value s hub).step sv rest fun x => ?_
  rw [Star.assoc]
  refine Does.fact fun ex => ?_
  obtain ⟨k, n, s'⟩ := x
  refine Does.ret ((ScriptAt.stable _ _).star rest) (fun {h A} a => fact_star.2 ⟨?_, ?_⟩)
  · dsimp only at ex
    obtain ⟨e1, e2⟩ := Prod.mk.inj ex
    subst e1 e2
    rfl
  · rw [Star.left_comm] at a
    exact a

/-- `if(c) bytes_read += s->parse(&key);` -/
theorem keyIf_does (o : HPSBT) (v : PSBT) (br : Nat) (s : PStream) {c d : Prop} [Decidable c] [Decidable d] (hc : c ↔ d)
    (hub : (if d then v.parseKey br s else (v, br, s)).1.key.status ≠ .ub) :
    Does (PsbtAt o v) (HM.ifElse c (o.parseKey br s) (pure (o, br, s)))
      (fun x => fact (x.2 = (if d then v.parseKey br s else (v, br, s)).2) ⋆ PsbtAt x.1 (if d then v.parseKey br s else (v, br, s)).1) := by
  unfold HM.ifElse
  by_cases h : d
  · rw [if_pos (hc.2 h)]
    rw [if_pos h] at hub ⊢
    exact parseKey_does o v br s hub
  · rw [if_neg (mt hc.1 h), if_neg h]
    exact Does.ret (PsbtAt.stable _ _) (fun a => fact_star.2 ⟨rfl, a⟩)

theorem valueIf_does (o : HPSBT) (v : PSBT) (br : Nat) (s : PStream) {c d : Prop} [Decidable c] [Decidable d] (hc : c ↔ d)
    (hub : (if d then v.parseValue br s else (v, br, s)).1.value.status ≠ .ub) :
    Does (PsbtAt o v) (HM.ifElse c (o.parseValue br s) (pure (o, br, s)))
      (fun x => fact (x.2 = (if d then v.parseValue br s else (v, br, s)).2) ⋆ PsbtAt x.1 (if d then v.parseValue br s else (v, br, s)).1) := by
  unfold HM.ifElse
  by_cases h : d
  · rw [if_pos (hc.2 h)]
    rw [if_pos h] at hub ⊢
    exact parseValue_does o v br s hub
  · rw [if_neg (mt hc.1 h), if_neg h]
    exact Does.ret (PsbtAt.stable _ _) (fun a => fact_star.2 ⟨rfl, a⟩)

/-- Other scalars. -/
theorem scalars {o : HPSBT} {v : PSBT} {h : Heap} {A : Finset Nat} (a : PsbtAt o v h A) (st : Status) (bp : Nat) (sec : UInt8) (pos : Nat) :
    PsbtAt { o with status := st, bytesParsed := bp, sec := sec, lastKeyPos := pos } { v with status := st, bytesParsed := bp, sec := sec, lastKeyPos := pos } h A := by
  refine star_mono (fun h => h) (star_mono (fun h => h) (star_mono ?_ (fun h => h))) a
  rintro h A ⟨-, e⟩
  exact ⟨⟨rfl, rfl, rfl, rfl⟩, e⟩

theorem finish_does (o : HPSBT) (v : PSBT) (st : Status) (br : Nat) (s : PStream) :
    Does (PsbtAt o v) (pure (o.finish st br s)) (fun x => fact (x.2 = (v.finish st br s).2) ⋆ PsbtAt x.1 (v.finish st br s).1) := by
  refine Does.know same fun hs => ?_
  refine Does.ret (PsbtAt.stable _ _) (fun {h A} a => fact_star.2 ⟨rfl, ?_⟩)
  have b := scalars a st (v.bytesParsed + br) v.sec v.lastKeyPos
  unfold finish PSBT.finish
  dsimp only
  rw [hs.bytes]
  have e : ({ o with status := st, bytesParsed := v.bytesParsed + br } : HPSBT) = { o with status := st, bytesParsed := v.bytesParsed + br, sec := v.sec, lastKeyPos := v.lastKeyPos } := by
    rw [← hs.sec, ← hs.pos]
  rw [e]
  exact b

theorem assign_empty_does (o : HScript) (v : Script) (hd : v.status = .done) :
    Does (ScriptAt o v) (HM.obj (o.assign {})) (fun o' => ScriptAt o' (v.assign {})) := by
  refine Does.obj fun {h A} w g a => ?_
  obtain ⟨o', v', h', B, e, a', -, st, hv⟩ := HScript.assign_at w a (ScriptAt.null h) hd ⟨by simp, by simp⟩ (by simp)
  rw [hv g (by simp)] at a'
  exact ⟨o', h', B, e, a', st⟩

/-! ### One round -/

/-- What a round leaves behind. -/
def RoundPost (r : (PSBT × Nat × PStream) × Bool) (n : Nat) (x : (HPSBT × Nat × PStream) × Bool) : HProp :=
  fact (x.1.2 = r.1.2 ∧ x.2 = r.2 ∧ PSBT.Next r) ⋆ PsbtAt x.1.1 r.1.1 ⋆ LostLe n

theorem finish_at {o : HPSBT} {v : PSBT} {h : Heap} {A : Finset Nat} (a : PsbtAt o v h A) (st : Status) (br : Nat) (s : PStream) :
    PsbtAt (o.finish st br s).1 (v.finish st br s).1 h A := by
  have hs := same a
  have b := scalars a st (v.bytesParsed + br) v.sec v.lastKeyPos
  unfold finish PSBT.finish
  dsimp only
  rw [hs.bytes]
  have e : ({ o with status := st, bytesParsed := v.bytesParsed + br } : HPSBT) = { o with status := st, bytesParsed := v.bytesParsed + br, sec := v.sec, lastKeyPos := v.lastKeyPos } := by
    rw [← hs.sec, ← hs.pos]
  rw [e]
  exact b

theorem lostNone {P : HProp} {n : Nat} {h : Heap} {A : Finset Nat} (a : P h A) : (P ⋆ LostLe n) h A :=
  ⟨A, ∅, a, ⟨by simp, by simp⟩, by simp, by simp⟩

theorem roundAdd_does (o : HPSBT) (v : PSBT) (junk : Bytes) (br : Nat) (s : PStream) (hm : v.Mid s) (hf : s.avail = true → v.key.status ≠ .failed ∧ v.value.status ≠ .failed)
    (hub : (v.roundAdd junk br s).1.1.status ≠ .ub) :
    Does (PsbtAt o v) (o.roundAdd junk br s) (RoundPost (v.roundAdd junk br s) (v.roundAddLoss junk)) := by
  refine Does.know same fun hs => ?_
  unfold roundAdd PSBT.roundAddLoss
  unfold PSBT.roundAdd at hub ⊢
  by_cases hu : v.key.status = .ub ∨ v.value.status = .ub
  · rw [if_pos hu] at hub
    exact absurd rfl hub
  rw [if_neg hu] at hub ⊢
  rw [hs.key, hs.value]
  by_cases hd : v.key.status = .done ∧ v.value.status = .done
  · rw [if_pos hd] at hub
    rw [if_pos hd, if_pos hd, if_pos hd]
    cases e : v.add junk v.sec v.key v.value with
    | ub =>
      rw [e] at hub
      exact absurd rfl hub
    | ok y =>
      obtain ⟨r, q⟩ := y
      dsimp only
      rw [hs.sec]
      refine (add_does junk o v q v.sec o.key o.value v.key v.value r hd.1 hd.2 hm.rich e).bind fun x => ?_
      refine Does.fact fun ⟨ex, ek, ev, hr⟩ => ?_
      obtain ⟨xr, x⟩ := x
      dsimp only at ex ek ev ⊢
      subst ex
      obtain ⟨sh, l1, l2⟩ := PSBT.add_shape e
      have qk : q.key = v.key := by rw [sh]
      have qv : q.value = v.value := by rw [sh]
      have qt : q.tx = v.tx := by rw [sh]
      have qp : q.lastKeyPos = v.lastKeyPos := by rw [sh]
      have qs : q.status = v.status := by rw [sh]
      have qc : q.sec = v.sec := by rw [sh]
      have eq : ScriptAt o.key v.key ⋆ ScriptAt o.value v.value ⋆ PsbtCore x q = PsbtAt x q := by rw [core, ek, ev, qk, qv]
      rw [eq]
      have sx := PsbtAt.stable x q
      have sl := Stable.lostLe (v.addLoss junk v.sec v.key v.value)
      by_cases hn : xr < 0
      · rw [if_pos hn, if_pos hn]
        refine Does.ret (sx.star sl) (fun {h A} a => fact_star.2 ⟨⟨rfl, rfl, ?_⟩, star_mono (fun a => finish_at a _ _ _) (fun l => l) a⟩)
        show PSBT.Inv _
        exact {
          tx := by show q.tx.Sound; rw [qt]; exact hm.rich.tx
          fill := by
            left
            show q.ins.length = q.tx.txIns.length ∧ q.outs.length = q.tx.txOuts.length
            rw [qt, l1, l2]
            exact ⟨hm.rich.ins, hm.rich.outs⟩
          key := by show q.key.Within; rw [qk]; exact hm.key
          value := by show q.value.Within; rw [qv]; exact hm.value
          done := fun c => by cases c
          run := fun c => by cases c
          early := fun c => by cases c }
      · rw [if_neg hn, if_neg hn]
        refine Does.ret (sx.star sl) (fun {h A} a => fact_star.2 ⟨⟨rfl, rfl, ?_⟩, star_mono (fun {h A} a => ?_) (fun l => l) a⟩)
        · show PSBT.Live _ _
          exact {
            status := qs.trans hm.status
            pos := by
              show 5 < q.lastKeyPos + _
              have := hm.pos
              omega
            rich := (hr (by omega)).of rfl rfl rfl
            key := by show q.key.Within; rw [qk]; exact hm.key
            value := by show q.value.Within; rw [qv]; exact hm.value
            avail := fun _ => by
              show q.key.status = _ ∧ q.value.status = _
              rw [qk, qv]
              exact hd
            last := fun _ _ => by
              show q.key.status = _ ∧ q.value.status = _
              rw [qk, qv]
              exact hd }
        · have hx := same a
          have b := scalars a q.status q.bytesParsed q.sec (q.lastKeyPos + (v.key.length + v.value.length))
          dsimp only
          rw [hs.keyLen, hs.valueLen]
          have e1 : ({ x with lastKeyPos := x.lastKeyPos + (v.key.length + v.value.length) } : HPSBT) =
              { x with status := q.status, bytesParsed := q.bytesParsed, sec := q.sec, lastKeyPos := q.lastKeyPos + (v.key.length + v.value.length) } := by
            rw [← hx.status, ← hx.bytes, ← hx.sec, hx.pos]
          rw [e1]
          exact b
  · rw [if_neg hd, if_neg hd, if_neg hd]
    refine Does.ret (PsbtAt.stable _ _) (fun {h A} a => fact_star.2 ⟨⟨rfl, rfl, ?_⟩, lostNone a⟩)
    show PSBT.Live _ _
    exact {
      status := hm.status
      pos := hm.pos
      rich := hm.rich
      key := hm.key
      value := hm.value
      avail := fun c => by
        exfalso
        apply hd
        have h1 := hm.avail c
        have h2 := hf c
        rw [not_or] at hu
        constructor
        · cases e : v.key.status <;> simp_all
        · cases e : v.value.status <;> simp_all
      last := fun c => absurd c hm.sec }

theorem _root_.UB.PSBT.Mid.parseKey {v : PSBT} {s : PStream} (h : v.Mid s) (br : Nat) (ha : s.avail = false) : (v.parseKey br s).1.Mid s ∧ (v.parseKey br s).2.2 = s := by
  have e := Script.fromStream_dry v.key ha
  refine ⟨?_, e⟩
  exact {
    status := h.status
    pos := h.pos
    rich := h.rich.of rfl rfl rfl
    key := (Script.fromStream_within v.key s h.key).1
    value := h.value
    avail := fun c => by rw [ha] at c; cases c
    sec := h.sec }

theorem _root_.UB.PSBT.Mid.parseValue {v : PSBT} {s : PStream} (h : v.Mid s) (br : Nat) (ha : s.avail = false) : (v.parseValue br s).1.Mid s ∧ (v.parseValue br s).2.2 = s := by
  have e := Script.fromStream_dry v.value ha
  refine ⟨?_, e⟩
  exact {
    status := h.status
    pos := h.pos
    rich := h.rich.of rfl rfl rfl
    key := h.key
    value := (Script.fromStream_within v.value s h.value).1
    avail := fun c => by rw [ha] at c; cases c
    sec := h.sec }

theorem roundRetry_does (o : HPSBT) (v : PSBT) (junk : Bytes) (br : Nat) (s : PStream) (hm : v.Mid s) (hub : (v.roundRetry junk br s).1.1.status ≠ .ub) :
    Does (PsbtAt o v) (o.roundRetry junk br s) (RoundPost (v.roundRetry junk br s) (v.roundRetryLoss junk br s)) := by
  refine Does.know same fun hs => ?_
  unfold roundRetry PSBT.roundRetryLoss
  unfold PSBT.roundRetry at hub ⊢
  by_cases hu : v.key.status = .ub ∨ v.value.status = .ub
  · rw [if_pos hu] at hub
    exact absurd rfl hub
  rw [if_neg hu] at hub ⊢
  rw [hs.key, hs.value]
  by_cases hf : v.key.status = .failed ∨ v.value.status = .failed
  · rw [if_pos hf, if_pos hf, if_pos hf]
    refine Does.ret (PsbtAt.stable _ _) (fun {h A} a => fact_star.2 ⟨⟨rfl, rfl, ?_⟩, lostNone (finish_at a _ _ _)⟩)
    show PSBT.Inv _
    exact PSBT.Rich.inv (hm.rich.of rfl rfl rfl) rfl hm.key hm.value
  rw [if_neg hf] at hub
  rw [if_neg hf, if_neg hf, if_neg hf]
  have hmid : (v.key.status = .incomplete ∨ v.value.status = .incomplete) → s.avail = false := by
    intro c
    cases ha : s.avail with
    | false => rfl
    | true => exact absurd c (by have := hm.avail ha; tauto)
  -- the key
  have hk : ∃ v1 n1, (if v.key.status = .incomplete then v.parseKey br s else (v, br, s)) = (v1, n1, s) ∧ v1.Mid s ∧ (s.avail = true → v1 = v) ∧ v1.value = v.value := by
    by_cases hi : v.key.status = .incomplete
    · rw [if_pos hi]
      have ha := hmid (Or.inl hi)
      obtain ⟨m1, m2⟩ := hm.parseKey br ha
      exact ⟨_, _, Prod.ext rfl (Prod.ext rfl m2), m1, fun c => (by rw [ha] at c; cases c), rfl⟩
    · rw [if_neg hi]
      exact ⟨v, br, rfl, hm, fun _ => rfl, rfl⟩
  obtain ⟨v1, n1, e1, m1, c1, w1⟩ := hk
  -- the value
  have hv : ∃ v2 n2, (if v1.value.status = .incomplete then v1.parseValue n1 s else (v1, n1, s)) = (v2, n2, s) ∧ v2.Mid s ∧ (s.avail = true → v2 = v) ∧ v2.key = v1.key := by
    by_cases hi : v1.value.status = .incomplete
    · rw [if_pos hi]
      have ha := hmid (Or.inr (by rw [← w1]; exact hi))
      obtain ⟨m2, e2⟩ := m1.parseValue n1 ha
      exact ⟨_, _, Prod.ext rfl (Prod.ext rfl e2), m2, fun c => (by rw [ha] at c; cases c), rfl⟩
    · rw [if_neg hi]
      exact ⟨v1, n1, rfl, m1, c1, rfl⟩
  obtain ⟨v2, n2, e2, m2, c2, w2⟩ := hv
  rw [e1] at hub ⊢
  dsimp only at hub ⊢
  rw [e2] at hub ⊢
  dsimp only at hub ⊢
  have hnu : v2.key.status ≠ .ub ∧ v2.value.status ≠ .ub := by
    unfold PSBT.roundAdd at hub
    by_contra hc
    rw [if_pos (by tauto)] at hub
    exact absurd rfl hub
  have d1 := keyIf_does o v br s (c := v.key.status = .incomplete) (d := v.key.status = .incomplete) Iff.rfl (by rw [e1]; rw [← w2]; exact hnu.1)
  rw [e1] at d1
  refine d1.bind fun x => Does.fact fun ex => ?_
  obtain ⟨o1, n1', s1⟩ := x
  dsimp only at ex ⊢
  obtain ⟨rfl, rfl⟩ := Prod.mk.inj ex
  refine Does.know same fun h1 => ?_
  have d2 := valueIf_does o1 v1 n1' s1 (c := o1.value.status = .incomplete) (d := v1.value.status = .incomplete) (by rw [h1.value]) (by rw [e2]; exact hnu.2)
  rw [e2] at d2
  refine d2.bind fun x => Does.fact fun ex => ?_
  obtain ⟨o2, n2', s2⟩ := x
  dsimp only at ex ⊢
  obtain ⟨rfl, rfl⟩ := Prod.mk.inj ex
  refine roundAdd_does o2 v2 junk n2' s2 m2 (fun c => ?_) hub
  rw [c2 c]
  tauto

theorem round_does (o : HPSBT) (v : PSBT) (junk : Bytes) (br : Nat) (s : PStream) (hl : v.Live s) (ha : s.avail = true) (hsec : v.sec ≠ v.sections)
    (hub : (v.round junk br s).1.1.status ≠ .ub) :
    Does (PsbtAt o v) (o.round junk br s) (RoundPost (v.round junk br s) (v.roundLoss junk br s)) := by
  refine Does.know same fun hs => ?_
  have hd := hl.avail ha
  unfold round PSBT.roundLoss
  unfold PSBT.round at hub ⊢
  rw [if_pos hd] at hub ⊢
  have w1 := Script.fromStream_within v.key s hl.key
  have hm : (v.parseKey br s).1.Mid (v.parseKey br s).2.2 := {
    status := hl.status
    pos := hl.pos
    rich := hl.rich.of rfl rfl rfl
    key := w1.1
    value := hl.value
    avail := fun c => ⟨fun c' => (by
      have hx := w1.2 c'
      have hy : (v.key.fromStream s).2.2.avail = true := c
      rw [hy] at hx; cases hx), (by
      show v.value.status ≠ _
      rw [hd.2]; simp)⟩
    sec := hsec }
  have hv : (v.parseKey br s).1.value = v.value := rfl
  have dk := keyIf_does o v br s (c := o.key.status = .done ∧ o.value.status = .done) (d := v.key.status = .done ∧ v.value.status = .done) (by rw [hs.key, hs.value])
  rw [if_pos hd] at dk
  generalize v.parseKey br s = z at hub hm hv dk ⊢
  obtain ⟨v1, n1, s1⟩ := z
  dsimp only at hub hm hv dk ⊢
  by_cases h1 : v1.key.status = .done ∧ v1.key.length = 1
  · rw [if_pos h1, if_pos h1]
    refine (dk (by rw [h1.1]; simp)).bind fun x => Does.fact fun ex => ?_
    obtain ⟨o1, n1', s1'⟩ := x
    dsimp only at ex ⊢
    obtain ⟨rfl, rfl⟩ := Prod.mk.inj ex
    refine Does.know same fun h2 => ?_
    rw [if_pos (by rw [h2.key, h2.keyLen]; exact h1)]
    refine Does.ret (PsbtAt.stable _ _) (fun {h A} a => fact_star.2 ⟨⟨rfl, rfl, ?_⟩, lostNone ?_⟩)
    · show PSBT.Live _ _
      have hvd : v1.value.status = .done := by rw [hv]; exact hd.2
      exact {
        status := hm.status
        pos := by
          show 5 < v1.lastKeyPos + 1
          have := hm.pos
          omega
        rich := hm.rich.of rfl rfl rfl
        key := hm.key
        value := hm.value
        avail := fun _ => ⟨h1.1, hvd⟩
        last := fun _ _ => ⟨h1.1, hvd⟩ }
    · have b := scalars a v1.status v1.bytesParsed (v1.sec + 1) (v1.lastKeyPos + 1)
      dsimp only
      have e1 : ({ o1 with sec := o1.sec + 1, lastKeyPos := o1.lastKeyPos + 1 } : HPSBT) =
          { o1 with status := v1.status, bytesParsed := v1.bytesParsed, sec := v1.sec + 1, lastKeyPos := v1.lastKeyPos + 1 } := by
        rw [← h2.status, ← h2.bytes, ← h2.sec, h2.pos]
      rw [e1]
      exact b
  · rw [if_neg h1] at hub
    rw [if_neg h1, if_neg h1]
    -- the value
    have hm2 : ∃ v2 n2 s2, (if v1.key.status = .done then v1.parseValue n1 s1 else (v1, n1, s1)) = (v2, n2, s2) ∧ v2.Mid s2 ∧ v2.key = v1.key := by
      by_cases hk : v1.key.status = .done
      · rw [if_pos hk]
        have w2 := Script.fromStream_within v1.value s1 hm.value
        refine ⟨_, _, _, rfl, ?_, rfl⟩
        exact {
          status := hm.status
          pos := hm.pos
          rich := hm.rich.of rfl rfl rfl
          key := hm.key
          value := w2.1
          avail := fun c => ⟨(by
            show v1.key.status ≠ _
            rw [hk]; simp), fun c' => (by
            have hx := w2.2 c'
            have hy : (v1.value.fromStream s1).2.2.avail = true := c
            rw [hy] at hx; cases hx)⟩
          sec := hm.sec }
      · rw [if_neg hk]
        exact ⟨v1, n1, s1, rfl, hm, rfl⟩
    obtain ⟨v2, n2, s2, e2, m2, k2⟩ := hm2
    rw [e2] at hub ⊢
    dsimp only at hub ⊢
    have hnu : v2.key.status ≠ .ub ∧ v2.value.status ≠ .ub := by
      unfold PSBT.roundRetry at hub
      by_contra hc
      rw [if_pos (by tauto)] at hub
      exact absurd rfl hub
    refine (dk (by rw [← k2]; exact hnu.1)).bind fun x => Does.fact fun ex => ?_
    obtain ⟨o1, n1', s1'⟩ := x
    dsimp only at ex ⊢
    obtain ⟨rfl, rfl⟩ := Prod.mk.inj ex
    refine Does.know same fun h2 => ?_
    rw [if_neg (by rw [h2.key, h2.keyLen]; exact h1)]
    have d2 := valueIf_does o1 v1 n1' s1' (c := o1.key.status = .done) (d := v1.key.status = .done) (by rw [h2.key]) (by rw [e2]; exact hnu.2)
    rw [e2] at d2
    refine d2.bind fun x => Does.fact fun ex => ?_
    obtain ⟨o2, n2', s2'⟩ := x
    dsimp only at ex ⊢
    obtain ⟨rfl, rfl⟩ := Prod.mk.inj ex
    exact roundRetry_does o2 v2 junk n2' s2' m2 hub

end HPSBT
end UB
