import Verif.Lemmas.HeapTx

/-! `from_stream` of inputs, outputs and transactions on the heap. -/

namespace UB
open Heap

theorem lenLoop_idle (fuel len pos : Nat) (s : PStream) (h : s.avail = false) : lenLoop fuel len pos s = some (len, pos, s) := by
  cases fuel with
  | zero => rfl
  | succ fuel => rw [lenLoop, if_neg (by simp [h])]

theorem C.ite_bind {α β : Type} (c : Prop) [Decidable c] (x y : C α) (k : α → C β) : ((if c then x else y) >>= k) = if c then x >>= k else y >>= k := by
  split <;> rfl

namespace HScript

/-- A script that is being parsed. -/
def Mid (o : HScript) : Prop := (o.bytesParsed = 0 → o.ptr = 0 ∧ o.scriptLen = 0) ∧ (0 < o.bytesParsed → o.bytesParsed < o.lenLen ∨ 0 < o.scriptLen)

theorem start_mid {o o' : HScript} {h h' : Heap} (n : o.Neat) (hq : o.status = .done → 0 < o.scriptLen → o.ptr ≠ 0)
    (hs : ¬ (o.status = .failed ∨ o.status = .ub)) (e : o.start h = .ok (o', h')) :
    o'.status = .incomplete ∧ o'.Mid := by
  unfold start at e
  by_cases hd : o.status = .done
  · rw [if_pos hd] at e
    obtain ⟨⟨o1, h1⟩, e1, e⟩ := C.ok_inv e
    injection e with e
    injection e with e _
    subst e
    refine ⟨rfl, ?_⟩
    unfold clear at e1
    split at e1
    · obtain ⟨h2, -, e1⟩ := C.ok_inv e1
      injection e1 with e1
      injection e1 with e1 _
      subst e1
      exact ⟨fun _ => ⟨rfl, rfl⟩, fun c => by simp at c⟩
    · rename_i hl
      injection e1 with e1
      injection e1 with e1 _
      subst e1
      have h0 : o.scriptLen = 0 := by
        have hl' : ¬ (o.scriptLen > 0 ∧ o.ptr ≠ 0) := hl
        by_contra hc
        exact hl' ⟨by omega, hq hd (by omega)⟩
      exact ⟨fun _ => ⟨n.1 hd h0, h0⟩, fun c => by simp at c⟩
  · rw [if_neg hd] at e
    injection e with e
    injection e with e _
    subst e
    have hi : o.status = .incomplete := by
      cases ho : o.status <;> simp_all
    exact ⟨rfl, n.2 hi⟩

theorem swap_len {o o' : HScript} {br : Nat} {h h' : Heap} (e : o.swap br h = .ok (o', h')) :
    (o'.status = .failed ∨ (o'.status = o.status ∧ o'.scriptLen = o.scriptLen ∧ o'.bytesParsed = o.bytesParsed ∧ o'.lenLen = o.lenLen ∧
      (o.scriptLen = 0 → o'.ptr = o.ptr))) := by
  unfold swap at e
  split at e
  · rename_i hc
    obtain ⟨h2, -, e⟩ := C.ok_inv e
    dsimp only at e
    split at e
    · injection e with e
      injection e with e _
      subst e
      exact Or.inl rfl
    · injection e with e
      injection e with e _
      subst e
      exact Or.inr ⟨rfl, rfl, rfl, rfl, fun h0 => absurd hc.2 (by omega)⟩
  · injection e with e
    injection e with e _
    subst e
    exact Or.inr ⟨rfl, rfl, rfl, rfl, fun _ => rfl⟩

theorem readBody_neat {o o' : HScript} {br r : Nat} {s s' : PStream} {h h' : Heap} (hi : o.status = .incomplete)
    (hp : o.bytesParsed + br = 0 → o.ptr = 0 ∧ o.scriptLen = 0) (hm : 0 < o.bytesParsed + br → o.bytesParsed + br < o.lenLen ∧ s.avail = false ∨ 0 < o.scriptLen ∨ o.ptr = 0 ∧ o.scriptLen = 0 ∧ o.lenLen = o.bytesParsed + br)
    (ha : o.bytesParsed + br = 0 → s.avail = false) (e : o.readBody br s h = .ok (o', r, s', h')) : o'.Neat := by
  unfold readBody at e
  dsimp only at e
  obtain ⟨h2, -, e⟩ := C.ok_inv e
  injection e with e
  injection e with e _
  subst e
  rcases hr : s.readN (o.scriptLen + o.lenLen - (o.bytesParsed + br)) with ⟨bs, s1⟩
  have hlen : bs.length ≤ o.scriptLen + o.lenLen - (o.bytesParsed + br) := by
    have := readN_length_le s (o.scriptLen + o.lenLen - (o.bytesParsed + br))
    rwa [hr] at this
  have hnone : s.avail = false → bs = [] := fun h => by
    have := readN_none s (o.scriptLen + o.lenLen - (o.bytesParsed + br)) h
    rwa [hr] at this
  refine ⟨fun hd h0 => ?_, fun hin => ⟨fun hb => ?_, fun hb => ?_⟩⟩
  · simp only at hd h0 ⊢
    by_cases hz : o.bytesParsed + br = 0
    · exact (hp hz).1
    · rcases hm (by omega) with ⟨h1, h2⟩ | h1 | h1
      · rw [hnone h2] at hd
        simp only [List.length_nil, Nat.add_zero] at hd
        rw [if_neg (by omega), hi] at hd
        cases hd
      · omega
      · exact h1.1
  · simp only at hb ⊢
    exact hp (by omega)
  · simp only at hb hin ⊢
    by_cases hz : o.bytesParsed + br = 0
    · rw [hnone (ha hz)] at hb
      simp only [List.length_nil] at hb
      omega
    · rcases hm (by omega) with ⟨h1, h2⟩ | h1 | h1
      · rw [hnone h2]
        left
        simp only [List.length_nil]
        omega
      · exact Or.inr h1
      · exfalso
        have : bs.length = 0 := by omega
        rw [this, if_pos (by omega)] at hin
        cases hin

theorem fromStream_neat_of {o o' : HScript} {r : Nat} {s s' : PStream} {h h' : Heap} (n : o.Neat) (hz : o.scriptLen < 2 ^ 64)
    (hq : o.status = .done → 0 < o.scriptLen → o.ptr ≠ 0) (e : o.fromStream s h = .ok (o', r, s', h')) : o'.Neat := by
  have failed : ∀ {q : HScript}, q.status = .failed → q.Neat := by
    intro q hf
    exact ⟨fun c => (by rw [hf] at c; cases c), fun c => (by rw [hf] at c; cases c)⟩
  unfold fromStream at e
  by_cases hs : o.status = .failed ∨ o.status = .ub
  · rw [if_pos hs] at e
    injection e with e
    injection e with e _
    subst e
    exact n
  rw [if_neg hs] at e
  obtain ⟨⟨o1, h1⟩, e1, e⟩ := C.ok_inv e
  obtain ⟨i1, m1⟩ := start_mid n hq hs e1
  have z1 : o1.scriptLen < 2 ^ 64 := by
    unfold start at e1
    by_cases hd : o.status = .done
    · rw [if_pos hd] at e1
      obtain ⟨⟨o2, h2⟩, e2, e1⟩ := C.ok_inv e1
      injection e1 with e1
      injection e1 with e1 _
      subst e1
      unfold clear at e2
      split at e2
      · obtain ⟨h3, -, e2⟩ := C.ok_inv e2
        injection e2 with e2
        injection e2 with e2 _
        subst e2
        exact Nat.two_pow_pos 64
      · injection e2 with e2
        injection e2 with e2 _
        subst e2
        exact hz
    · rw [if_neg hd] at e1
      injection e1 with e1
      injection e1 with e1 _
      subst e1
      exact hz
  rcases hr : o1.readPrefix h1 s with ⟨o2, br, s2, h2⟩
  dsimp only at e
  rw [hr] at e
  dsimp only at e
  by_cases hf : o2.status = .failed
  · rw [if_pos hf] at e
    injection e with e
    injection e with e _
    subst e
    exact failed hf
  rw [if_neg hf] at e
  -- what is known once the first byte has been looked at
  have k2 : o2.status = .incomplete ∧ o2.scriptLen < 2 ^ 64 ∧ (o2.bytesParsed + br = 0 → o2.ptr = 0 ∧ o2.scriptLen = 0 ∧ s2.avail = false) ∧
      (0 < o2.bytesParsed + br → o2.bytesParsed + br < o2.lenLen ∨ 0 < o2.scriptLen ∨ o2.ptr = 0 ∧ o2.scriptLen = 0 ∧ o2.lenLen = o2.bytesParsed + br ∧ o2.lenLen = 1) := by
    unfold readPrefix at hr
    by_cases hc : s.avail = true ∧ o1.bytesParsed = 0
    · rw [if_pos hc] at hr
      rcases hb : s.readByte with ⟨b, s3⟩
      rw [hb] at hr
      dsimp only at hr
      by_cases hlt : b < 0xfd
      · rw [if_pos hlt] at hr
        by_cases h0 : b.toNat > 0
        · rw [if_pos h0] at hr
          rcases hcl : h1.calloc b.toNat with ⟨p, h3⟩
          rw [hcl] at hr
          dsimp only at hr
          split at hr
          · injection hr with hr _
            subst hr
            exact absurd rfl hf
          · injection hr with hr hr2
            injection hr2 with hr2 hr3
            subst hr hr2
            have := b.toNat_lt
            exact ⟨i1, by simp only; omega, fun c => by simp at c, fun _ => Or.inr (Or.inl h0)⟩
        · rw [if_neg h0] at hr
          dsimp only at hr
          rw [if_neg (fun c => h0 c.2)] at hr
          injection hr with hr hr2
          injection hr2 with hr2 hr3
          subst hr hr2
          have hbz : b.toNat = 0 := by omega
          refine ⟨i1, by simp only; omega, fun c => by simp at c, fun _ => Or.inr (Or.inr ⟨(m1.1 hc.2).1, hbz, ?_, rfl⟩)⟩
          simp only
          omega
      · rw [if_neg hlt] at hr
        injection hr with hr hr2
        injection hr2 with hr2 hr3
        subst hr hr2
        refine ⟨i1, by simp, fun c => by simp at c, fun _ => Or.inl ?_⟩
        have hge : 0xfd ≤ b.toNat := by
          rw [UInt8.lt_iff_toNat_lt] at hlt
          simpa using hlt
        simp only
        have : 2 ≤ 2 ^ (b.toNat - 0xfc) := by
          calc 2 = 2 ^ 1 := rfl
            _ ≤ _ := Nat.pow_le_pow_right (by norm_num) (by omega)
        omega
    · rw [if_neg hc] at hr
      injection hr with hr hr2
      injection hr2 with hr2 hr3
      injection hr3 with hr3 _
      subst hr hr2 hr3
      refine ⟨i1, z1, fun c => ⟨(m1.1 (by omega)).1, (m1.1 (by omega)).2, ?_⟩, fun c => ?_⟩
      · by_contra ha
        exact hc ⟨by simpa using ha, by omega⟩
      · rcases m1.2 (by omega) with h | h
        · exact Or.inl (by omega)
        · exact Or.inr (Or.inl h)
  obtain ⟨i2, z2, kz, kp⟩ := k2
  cases hloop : lenLoop (o2.lenLen - (o2.bytesParsed + br)) o2.scriptLen (o2.bytesParsed + br) s2 with
  | none => rw [hloop] at e; cases e
  | some q =>
    obtain ⟨len, pos, s3⟩ := q
    rw [hloop] at e
    dsimp only at e
    obtain ⟨f1, f2, f3, f4, f5⟩ := lenLoop_facts _ _ _ _ _ _ _ hloop z2
    obtain ⟨⟨o4, h4⟩, e4, e⟩ := C.ok_inv e
    dsimp only at e
    by_cases hf4 : o4.status = .failed
    · rw [if_pos hf4] at e
      injection e with e
      injection e with e _
      subst e
      exact failed hf4
    rw [if_neg hf4] at e
    rcases swap_len e4 with hf' | ⟨g1, g2, g3, g4, g5⟩
    · exact absurd hf' hf4
    simp only at g1 g2 g3 g4 g5
    split at e
    · injection e with e
      injection e with e _
      subst e
      exact failed rfl
    · rename_i hbad
      have hpos : o4.bytesParsed + (pos - o2.bytesParsed) = pos := by omega
      refine readBody_neat (g1.trans i2) (fun hz0 => ?_) (fun hz0 => ?_) (fun hz0 => ?_) e
      · obtain ⟨p0, l0, a0⟩ := kz (by omega)
        rw [lenLoop_idle _ _ _ _ a0] at hloop
        injection hloop with hloop
        injection hloop with hl hl2
        have : len = 0 := hl.symm.trans l0
        exact ⟨(g5 this).trans p0, g2.trans this⟩
      · rw [hpos] at hz0 hbad ⊢
        by_cases hlt : pos < o4.lenLen
        · exact Or.inl ⟨hlt, f4 (by omega)⟩
        · by_cases hl0 : len = 0
          · right; right
            by_cases h00 : o2.bytesParsed + br = 0
            · obtain ⟨p0, l0, a0⟩ := kz h00
              rw [lenLoop_idle _ _ _ _ a0] at hloop
              injection hloop with hloop
              injection hloop with hl hl2
              injection hl2 with hl2 _
              omega
            · by_cases hlt' : o2.bytesParsed + br < o2.lenLen
              · -- the length has just been read: it cannot be 0
                exfalso
                apply hbad
                have : lenVarIntN o4.scriptLen = 1 := by rw [g2, hl0]; rfl
                rw [this]
                omega
              rcases kp (by omega) with h | h | h
              · exact absurd h hlt'
              · have := (f5 (by omega)).1
                omega
              · refine ⟨(g5 hl0).trans h.1, g2.trans hl0, ?_⟩
                omega
          · exact Or.inr (Or.inl (by omega))
      · rw [hpos] at hz0
        obtain ⟨p0, l0, a0⟩ := kz (by omega)
        rw [lenLoop_idle _ _ _ _ a0] at hloop
        injection hloop with hloop
        injection hloop with hl hl2
        injection hl2 with hl2 hl3
        rw [← hl3]
        exact a0

/-- Script.cpp:264-315 with an allocator that grants what it can. -/
theorem fromStream_at {h : Heap} (w : h.Wf) (g : h.Generous) {o : HScript} {v v' : Script} {A : Finset Nat} (a : ScriptAt o v h A) {s s' : PStream} {r : Nat}
    (e : v.fromStream s = (v', r, s')) (hub : v'.status ≠ .ub) :
    ∃ o' h' B, o.fromStream s h = .ok (o', r, s', h') ∧ ScriptAt o' v' h' B ∧ Step h h' A B := by
  obtain ⟨eo, a, hs, n, rfl⟩ := a
  obtain ⟨v2, p2, r2, s2, h2, E, e2, a2, z2, m2, t2, g2, -⟩ := fromStream_ok w a hs s (by rw [e]; exact hub)
  have e3 := g2 g
  rw [e] at e3
  injection e3 with e3 e4
  injection e4 with e4 e5
  subst e3 e4 e5
  have es : o.status = v.status := by rw [eo]; rfl
  have el : o.scriptLen = v.scriptLen := by rw [eo]; rfl
  have eb : o.bytesParsed = v.bytesParsed := by rw [eo]; rfl
  rw [← eo] at e2
  rw [t2 ⟨fun c1 c2 => n.1 (es.trans c1) (el.trans c2), fun c1 c2 => ((n.2 (es.trans c1)).1 (eb.trans c2)).1⟩] at m2
  refine ⟨of v' p2, h2, own p2, e2, ⟨rfl, a2, z2, fromStream_neat_of n (by rw [el]; exact hs.2) (fun c1 c2 => ?_) e2, rfl⟩, by simpa using m2.1⟩
  have hl := hs.1 (by rw [← es, c1]; simp)
  exact w.ne (a.block (by rintro c; rw [c] at hl; simp at hl; omega))

/-- `clear` of a complete script, after which it can be parsed again. -/
theorem clear_at {h : Heap} (w : h.Wf) {o : HScript} {v : Script} {A : Finset Nat} (a : ScriptAt o v h A) (hd : v.status = .done) :
    ∃ o' h' B, o.clear h = .ok (o', h') ∧ ScriptAt { o' with status := .done, bytesParsed := 0 } { v.clear with status := .done, bytesParsed := 0 } h' B ∧ Step h h' A B := by
  obtain ⟨eo, a, hs, n, rfl⟩ := a
  have hl := hs.1 (by rw [hd]; simp)
  have es : o.status = v.status := by rw [eo]; rfl
  have el : o.scriptLen = v.scriptLen := by rw [eo]; rfl
  obtain ⟨p', h', e, a', s', hp, hq⟩ := clear_ok w a hl
  rw [← eo] at e
  have hz : p' = 0 := by
    by_cases h0 : v.scriptLen = 0
    · rw [(hq h0).1]; exact n.1 (es.trans hd) (el.trans h0)
    · exact hp (by omega)
  have hc : v.clear.scriptLen ≤ v.clear.arr.length ∧ v.clear.scriptLen < 2 ^ 64 := by
    unfold Script.clear
    split
    · simp
    · exact ⟨hl, hs.2⟩
  refine ⟨of v.clear p', h', own p', e, ⟨rfl, a', ⟨fun _ => hc.1, hc.2⟩, ⟨fun _ _ => hz, fun c => by cases c⟩, rfl⟩, s'⟩

end HScript

/-! ### Inputs -/

/-- The members of an input with the given script and witness objects. -/
def TxIn.on (v : TxIn) (sc : HScript) (wi : HWitness) : HTxIn := ⟨v.status, v.bytesParsed, v.hash, v.outputIndex, sc, v.sequence, wi⟩

namespace HTxIn

theorem readHead_on (v : TxIn) (sc : HScript) (wi : HWitness) (s : PStream) :
    (v.on sc wi).readHead s = ((v.readHead s).1.on sc wi, (v.readHead s).2.1, (v.readHead s).2.2) := rfl

theorem readHead_keep (v : TxIn) (s : PStream) :
    (v.readHead s).1.scriptSig = v.scriptSig ∧ (v.readHead s).1.witness = v.witness ∧ (v.readHead s).1.status = v.status := ⟨rfl, rfl, rfl⟩

/-- Transaction.cpp:76-82. -/
theorem start_at {h : Heap} (w : h.Wf) (g : h.Generous) {v : TxIn} {sc : HScript} (wi : HWitness) {A : Finset Nat} (a : ScriptAt sc v.scriptSig h A)
    (hq : v.status = .done → v.scriptSig.status = .done) :
    ∃ sc' h' B, (v.on sc wi).start h = .ok (v.start.on sc' wi, h') ∧ ScriptAt sc' v.start.scriptSig h' B ∧ Step h h' A B := by
  unfold start TxIn.start
  by_cases hd : v.status = .done
  · rw [if_pos hd, if_pos (show (v.on sc wi).status = .done from hd)]
    obtain ⟨o', v', h', B, e, a', st, s, gg⟩ := HScript.assign_raw w (vo := {}) (po := 0) a (at_null h) (hq hd) ⟨Nat.le_refl 0, by simp⟩ (by simp [own])
    have := gg g (by simp)
    subst this
    refine ⟨o', h', B, ?_, a', s⟩
    rw [show (v.on sc wi).scriptSig.assign {} h = .ok (o', h') from e, C.bind_ok]
    rfl
  · rw [if_neg hd, if_neg (show ¬ (v.on sc wi).status = .done from hd)]
    exact ⟨sc, h, A, rfl, a, Step.refl w ((ScriptAt.stable _ _).live a)⟩

theorem readScript_eq (t : HTxIn) (br : Nat) (s : PStream) (h : Heap) : t.readScript br s h =
    ((if s.avail ∧ br + t.bytesParsed = 36 then t.scriptSig.fromStream s h else pure (t.scriptSig, 0, s, h)) >>= fun a =>
      (if a.2.2.1.avail ∧ a.1.status = .incomplete then a.1.fromStream a.2.2.1 a.2.2.2 else pure (a.1, 0, a.2.2.1, a.2.2.2)) >>= fun b =>
        pure ({ t with scriptSig := b.1 }, br + a.2.1 + b.2.1, b.2.2.1, b.2.2.2)) := by
  simp only [C.ite_bind]
  rfl

/-- Transaction.cpp:93-98. -/
theorem readScript_at {h : Heap} (w : h.Wf) (g : h.Generous) {v : TxIn} {sc : HScript} (wi : HWitness) {A : Finset Nat} (a : ScriptAt sc v.scriptSig h A)
    (br : Nat) (s : PStream) (hub : (v.readScript br s).1.scriptSig.status ≠ .ub) :
    ∃ sc' h' B, (v.on sc wi).readScript br s h = .ok ((v.readScript br s).1.on sc' wi, (v.readScript br s).2.1, (v.readScript br s).2.2, h') ∧
      ScriptAt sc' (v.readScript br s).1.scriptSig h' B ∧ Step h h' A B := by
  rcases e1 : (if s.avail ∧ br + v.bytesParsed = 36 then v.scriptSig.fromStream s else (v.scriptSig, 0, s)) with ⟨vs, n, s1⟩
  rcases e2 : (if s1.avail ∧ vs.status = .incomplete then vs.fromStream s1 else (vs, 0, s1)) with ⟨vs', m, s2⟩
  have er : v.readScript br s = ({ v with scriptSig := vs' }, br + n + m, s2) := by
    unfold TxIn.readScript
    rw [e1]
    dsimp only
    rw [e2]
  rw [er] at hub ⊢
  dsimp only at hub ⊢
  have h1 : vs.status ≠ .ub := by
    intro c
    rw [if_neg (by rw [c]; simp)] at e2
    injection e2 with e2 _
    exact hub (e2 ▸ c)
  obtain ⟨sc1, hp1, B1, x1, a1, s1'⟩ : ∃ sc1 h1 B1, (if s.avail ∧ br + v.bytesParsed = 36 then sc.fromStream s h else pure (sc, 0, s, h)) = .ok (sc1, n, s1, h1) ∧
      ScriptAt sc1 vs h1 B1 ∧ Step h h1 A B1 := by
    by_cases hc : s.avail ∧ br + v.bytesParsed = 36
    · rw [if_pos hc] at e1 ⊢
      exact HScript.fromStream_at w g a e1 h1
    · rw [if_neg hc] at e1 ⊢
      injection e1 with e1 e1'
      injection e1' with e1' e1''
      subst e1 e1' e1''
      exact ⟨sc, h, A, rfl, a, Step.refl w ((ScriptAt.stable _ _).live a)⟩
  obtain ⟨sc2, hp2, B2, x2, a2, s2'⟩ : ∃ sc2 h2 B2, (if s1.avail ∧ sc1.status = .incomplete then sc1.fromStream s1 hp1 else pure (sc1, 0, s1, hp1)) = .ok (sc2, m, s2, h2) ∧
      ScriptAt sc2 vs' h2 B2 ∧ Step hp1 h2 B1 B2 := by
    have es : sc1.status = vs.status := by rw [a1.1]; rfl
    by_cases hc : s1.avail ∧ vs.status = .incomplete
    · rw [if_pos hc] at e2
      rw [if_pos (es ▸ hc)]
      exact HScript.fromStream_at s1'.wf (s1'.generous g) a1 e2 hub
    · rw [if_neg hc] at e2
      rw [if_neg (es ▸ hc)]
      injection e2 with e2 e2'
      injection e2' with e2' e2''
      subst e2 e2' e2''
      exact ⟨sc1, hp1, B1, rfl, a1, Step.refl s1'.wf ((ScriptAt.stable _ _).live a1)⟩
  refine ⟨sc2, hp2, B2, ?_, a2, s1'.trans s2'⟩
  rw [readScript_eq, show (if s.avail = true ∧ br + (v.on sc wi).bytesParsed = 36 then (v.on sc wi).scriptSig.fromStream s h else pure ((v.on sc wi).scriptSig, 0, s, h)) = .ok (sc1, n, s1, hp1) from x1,
    C.bind_ok]
  dsimp only
  rw [x2, C.bind_ok]
  rfl

/-- Transaction.cpp:99-114. -/
theorem readTail_on (v : TxIn) {sc : HScript} (wi : HWitness) (hsc : sc = HScript.of v.scriptSig sc.ptr) (br : Nat) (s : PStream)
    (hub : (v.readTail br s).1.status ≠ .ub) :
    (v.on sc wi).readTail br s = .ok ((v.readTail br s).1.on sc wi, (v.readTail br s).2.1, (v.readTail br s).2.2) ∧
      (v.readTail br s).1.scriptSig = v.scriptSig ∧ (v.readTail br s).1.witness = v.witness ∧ v.scriptSig.status ≠ .ub := by
  have es : (v.on sc wi).scriptSig.status = v.scriptSig.status := by show sc.status = _; rw [hsc]; rfl
  have el : (v.on sc wi).scriptSig.length = v.scriptSig.length := by show sc.length = _; rw [hsc]; rfl
  unfold readTail TxIn.readTail at *
  by_cases hf : v.scriptSig.status = .failed
  · rw [if_pos hf] at hub ⊢
    rw [if_pos (es.trans hf)]
    exact ⟨rfl, rfl, rfl, by rw [hf]; simp⟩
  rw [if_neg hf] at hub ⊢
  rw [if_neg (es ▸ hf)]
  by_cases hu : v.scriptSig.status = .ub
  · rw [if_pos hu] at hub
    exact absurd rfl hub
  rw [if_neg hu] at hub ⊢
  rw [el, es]
  rcases hr : s.readN (36 + v.scriptSig.length + 4 - (br + v.bytesParsed)) with ⟨q, s1⟩
  have hr' : s.readN (36 + v.scriptSig.length + 4 - (br + (v.on sc wi).bytesParsed)) = (q, s1) := hr
  dsimp only at hub ⊢
  rw [hr] at hub ⊢
  rw [hr']
  dsimp only at hub ⊢
  by_cases hc : q ≠ [] ∧ br + v.bytesParsed < 36 + v.scriptSig.length
  · rw [if_pos hc] at hub
    exact absurd rfl hub
  · rw [if_neg hc] at hub ⊢
    rw [if_neg (show ¬ (q ≠ [] ∧ br + (v.on sc wi).bytesParsed < 36 + v.scriptSig.length) from hc)]
    exact ⟨rfl, rfl, rfl, hu⟩

/-- Transaction.cpp:72-115 with an allocator that grants what it can. -/
theorem fromStream_at {h : Heap} (w : h.Wf) (g : h.Generous) {o : HTxIn} {v : TxIn × Bool} {A : Finset Nat} (a : InAt o v h A) {s s' : PStream} {r : Nat} {v' : TxIn}
    (e : v.1.fromStream s = (v', r, s')) (hub : v'.status ≠ .ub) (hq : v.1.status = .done → v.1.scriptSig.status = .done) :
    ∃ o' h' B, o.fromStream s h = .ok (o', r, s', h') ∧ InAt o' (v', v.2) h' B ∧ Step h h' A B := by
  have al := (InAt.stable _ _).live a
  obtain ⟨eo, A1, A2, h1, h2, hd, rfl⟩ := a
  have eo' : o = v.1.on o.scriptSig o.witness := eo
  unfold TxIn.fromStream at e
  unfold fromStream
  have es : o.status = v.1.status := by rw [eo]
  by_cases hs : v.1.status = .failed ∨ v.1.status = .ub
  · rw [if_pos hs] at e
    rw [if_pos (es ▸ hs)]
    injection e with e1 e2
    injection e2 with e2 e3
    subst e1 e2 e3
    exact ⟨o, h, A1 ∪ A2, rfl, ⟨eo, A1, A2, h1, h2, hd, rfl⟩, Step.refl w al⟩
  rw [if_neg hs] at e
  rw [if_neg (es ▸ hs)]
  obtain ⟨sc1, hp1, B1, e1, a1, s1⟩ := start_at w g o.witness h1 hq
  rw [← eo'] at e1
  rw [e1, C.bind_ok]
  dsimp only at e ⊢
  rw [readHead_on]
  dsimp only
  generalize hv1 : v.1.start.readHead s = t1 at e ⊢
  obtain ⟨v1, br, s1s⟩ := t1
  have k1 := readHead_keep v.1.start s
  rw [hv1] at k1
  dsimp only at k1 e ⊢
  generalize hv2 : v1.readScript br s1s = t2 at e ⊢
  obtain ⟨v2, br2, s2s⟩ := t2
  dsimp only at e
  rw [← k1.1] at a1
  have k2 : v2.witness = v1.witness := by
    have : (v1.readScript br s1s).1.witness = v1.witness := rfl
    rwa [hv2] at this
  have hv' : (v2.readTail br2 s2s).1.status ≠ .ub := by rw [e]; exact hub
  have hscu : v2.scriptSig.status ≠ .ub := by
    intro c
    apply hv'
    unfold TxIn.readTail
    rw [if_neg (by rw [c]; simp), if_pos c]
  obtain ⟨sc2, hp2, B2, e2, a2, s2⟩ := readScript_at s1.wf (s1.generous g) o.witness a1 br s1s (by rw [hv2]; exact hscu)
  rw [hv2] at e2 a2
  dsimp only at e2 a2
  rw [e2, C.bind_ok]
  dsimp only
  obtain ⟨e3, k3, k4, -⟩ := readTail_on v2 o.witness a2.1 br2 s2s hv'
  rw [e] at e3 k3 k4
  dsimp only at e3 k3 k4
  rw [e3, C.bind_ok]
  have st := s1.trans s2
  have l1 := (ScriptAt.stable _ _).live h1
  have l2 := (WitAt.stable _ _).live h2
  have w2 := (WitAt.stable _ _).keep w st l1 hd.symm h2
  have kw : v'.witness = v.1.witness := by
    rw [k4, k2, k1.2.1]
    unfold TxIn.start
    split <;> rfl
  have d2 : Disjoint B2 A2 := (st.apart w l2 hd.symm).symm
  refine ⟨v'.on sc2 o.witness, hp2, B2 ∪ A2, rfl, ⟨rfl, B2, A2, ?_, ?_, d2, rfl⟩, ?_⟩
  · show ScriptAt sc2 v'.scriptSig hp2 B2
    rw [k3]
    exact a2
  · show WitAt o.witness (v'.witness, v.2) hp2 A2
    rw [kw]
    exact w2
  · exact st.frame w A2 (fun q hq hc => Finset.disjoint_left.1 hd hc hq) l2

/-- The witness of an input parsed. -/
theorem parseWitness_at {h : Heap} (w : h.Wf) (g : h.Generous) {o : HTxIn} {v : TxIn × Bool} {A : Finset Nat} (a : InAt o v h A) {s s' : PStream} {r : Nat} {v' : TxIn}
    (e : Tx.parseWitness v.1 s = (v', r, s')) (hub : v'.witness.status ≠ .ub) (hl : v'.witness.arr.length < 2 ^ 62) :
    ∃ o' h' B, o.parseWitness s h = .ok (o', r, s', h') ∧ InAt o' (v'.since v.2) h' B ∧ Step h h' A B := by
  obtain ⟨eo, A1, A2, h1, h2, hd, rfl⟩ := a
  have l2 := (WitAt.stable _ _).live h2
  obtain ⟨ew, a2, he, rfl⟩ := h2
  rcases e1 : v.1.witness.fromStream s with ⟨vw, r1, s1⟩
  unfold Tx.parseWitness at e
  rw [e1] at e
  injection e with e2 e3
  injection e3 with e3 e4
  subst e2 e3 e4
  obtain ⟨v2, p2, st2, r2, s2, hp2, e2, b2, k2, -, g2⟩ := HWitness.fromStream_ok w a2 s (by rw [e1]; exact hub)
  obtain ⟨g3, g4⟩ := g2 g (by rw [e1]; exact lt62 hl)
  rw [e1] at g3
  injection g3 with g3 g5
  injection g5 with g5 g6
  subst g3 g5 g6
  rw [← ew] at e2
  have b3 := WitAt.of b2
  rw [flag_eq he g4] at b3
  have l1 := (ScriptAt.stable _ _).live h1
  have k1 := (ScriptAt.stable _ _).keep w k2 l2 hd h1
  have d2 := k2.apart w l1 hd
  refine ⟨{ o with witness := HWitness.of vw p2 }, hp2, A1 ∪ own (wptr p2 vw.arr), ?_, ⟨?_, A1, own (wptr p2 vw.arr), k1, ?_, d2, rfl⟩, ?_⟩
  · unfold parseWitness
    rw [e2, C.bind_ok]
    rfl
  · rw [eo]
    rfl
  · exact b3
  · have := k2.frame w A1 (fun q hq hc => Finset.disjoint_left.1 hd hq hc) l1
    rwa [Finset.union_comm, Finset.union_comm A1]

end HTxIn

/-! ### Outputs -/

/-- The members of an output with the given script object. -/
def TxOut.on (v : TxOut) (sc : HScript) : HTxOut := ⟨v.status, v.bytesParsed, v.tmp, v.amount, sc⟩

namespace HTxOut

theorem readHead_on (v : TxOut) (sc : HScript) (s : PStream) :
    (v.on sc).readHead s = ((v.readHead s).1.on sc, (v.readHead s).2.1, (v.readHead s).2.2) := rfl

/-- Transaction.cpp:149-155. -/
theorem start_at {h : Heap} (w : h.Wf) {v : TxOut} {sc : HScript} {A : Finset Nat} (a : ScriptAt sc v.scriptPubkey h A)
    (hq : v.status = .done → v.scriptPubkey.status = .done) :
    ∃ sc' h' B, (v.on sc).start h = .ok (v.start.on sc', h') ∧ ScriptAt sc' v.start.scriptPubkey h' B ∧ Step h h' A B := by
  unfold start TxOut.start
  by_cases hd : v.status = .done
  · rw [if_pos hd, if_pos (show (v.on sc).status = .done from hd)]
    obtain ⟨o', h', B, e, a', s⟩ := HScript.clear_at w a (hq hd)
    refine ⟨_, h', B, ?_, a', s⟩
    rw [show (v.on sc).scriptPubkey.clear h = .ok (o', h') from e, C.bind_ok]
    rfl
  · rw [if_neg hd, if_neg (show ¬ (v.on sc).status = .done from hd)]
    exact ⟨sc, h, A, rfl, a, Step.refl w ((ScriptAt.stable _ _).live a)⟩

theorem readScript_eq (t : HTxOut) (br : Nat) (s : PStream) (h : Heap) : t.readScript br s h =
    ((if s.avail ∧ br + t.bytesParsed = 8 then t.scriptPubkey.fromStream s h else pure (t.scriptPubkey, 0, s, h)) >>= fun a =>
      (if a.2.2.1.avail ∧ a.1.status = .incomplete then a.1.fromStream a.2.2.1 a.2.2.2 else pure (a.1, 0, a.2.2.1, a.2.2.2)) >>= fun b =>
        pure ({ t with scriptPubkey := b.1 }, br + a.2.1 + b.2.1, b.2.2.1, b.2.2.2)) := by
  simp only [C.ite_bind]
  rfl

/-- Transaction.cpp:163-168. -/
theorem readScript_at {h : Heap} (w : h.Wf) (g : h.Generous) {v : TxOut} {sc : HScript} {A : Finset Nat} (a : ScriptAt sc v.scriptPubkey h A)
    (br : Nat) (s : PStream) (hub : (v.readScript br s).1.scriptPubkey.status ≠ .ub) :
    ∃ sc' h' B, (v.on sc).readScript br s h = .ok ((v.readScript br s).1.on sc', (v.readScript br s).2.1, (v.readScript br s).2.2, h') ∧
      ScriptAt sc' (v.readScript br s).1.scriptPubkey h' B ∧ Step h h' A B := by
  rcases e1 : (if s.avail ∧ br + v.bytesParsed = 8 then v.scriptPubkey.fromStream s else (v.scriptPubkey, 0, s)) with ⟨vs, n, s1⟩
  rcases e2 : (if s1.avail ∧ vs.status = .incomplete then vs.fromStream s1 else (vs, 0, s1)) with ⟨vs', m, s2⟩
  have er : v.readScript br s = ({ v with scriptPubkey := vs' }, br + n + m, s2) := by
    unfold TxOut.readScript
    rw [e1]
    dsimp only
    rw [e2]
  rw [er] at hub ⊢
  dsimp only at hub ⊢
  have h1 : vs.status ≠ .ub := by
    intro c
    rw [if_neg (by rw [c]; simp)] at e2
    injection e2 with e2 _
    exact hub (e2 ▸ c)
  obtain ⟨sc1, hp1, B1, x1, a1, s1'⟩ : ∃ sc1 h1 B1, (if s.avail ∧ br + v.bytesParsed = 8 then sc.fromStream s h else pure (sc, 0, s, h)) = .ok (sc1, n, s1, h1) ∧
      ScriptAt sc1 vs h1 B1 ∧ Step h h1 A B1 := by
    by_cases hc : s.avail ∧ br + v.bytesParsed = 8
    · rw [if_pos hc] at e1 ⊢
      exact HScript.fromStream_at w g a e1 h1
    · rw [if_neg hc] at e1 ⊢
      injection e1 with e1 e1'
      injection e1' with e1' e1''
      subst e1 e1' e1''
      exact ⟨sc, h, A, rfl, a, Step.refl w ((ScriptAt.stable _ _).live a)⟩
  obtain ⟨sc2, hp2, B2, x2, a2, s2'⟩ : ∃ sc2 h2 B2, (if s1.avail ∧ sc1.status = .incomplete then sc1.fromStream s1 hp1 else pure (sc1, 0, s1, hp1)) = .ok (sc2, m, s2, h2) ∧
      ScriptAt sc2 vs' h2 B2 ∧ Step hp1 h2 B1 B2 := by
    have es : sc1.status = vs.status := by rw [a1.1]; rfl
    by_cases hc : s1.avail ∧ vs.status = .incomplete
    · rw [if_pos hc] at e2
      rw [if_pos (es ▸ hc)]
      exact HScript.fromStream_at s1'.wf (s1'.generous g) a1 e2 hub
    · rw [if_neg hc] at e2
      rw [if_neg (es ▸ hc)]
      injection e2 with e2 e2'
      injection e2' with e2' e2''
      subst e2 e2' e2''
      exact ⟨sc1, hp1, B1, rfl, a1, Step.refl s1'.wf ((ScriptAt.stable _ _).live a1)⟩
  refine ⟨sc2, hp2, B2, ?_, a2, s1'.trans s2'⟩
  rw [readScript_eq, show (if s.avail = true ∧ br + (v.on sc).bytesParsed = 8 then (v.on sc).scriptPubkey.fromStream s h else pure ((v.on sc).scriptPubkey, 0, s, h)) = .ok (sc1, n, s1, hp1) from x1,
    C.bind_ok]
  dsimp only
  rw [x2, C.bind_ok]
  rfl

/-- Transaction.cpp:169-179. -/
theorem readTail_on (v : TxOut) {sc : HScript} (hsc : sc = HScript.of v.scriptPubkey sc.ptr) (br : Nat) (s : PStream)
    (hub : (v.readTail br s).1.status ≠ .ub) :
    (v.on sc).readTail br s = ((v.readTail br s).1.on sc, (v.readTail br s).2.1, (v.readTail br s).2.2) ∧
      (v.readTail br s).1.scriptPubkey = v.scriptPubkey := by
  have es : (v.on sc).scriptPubkey.status = v.scriptPubkey.status := by show sc.status = _; rw [hsc]; rfl
  have el : (v.on sc).scriptPubkey.length = v.scriptPubkey.length := by show sc.length = _; rw [hsc]; rfl
  unfold readTail TxOut.readTail at *
  by_cases hf : v.scriptPubkey.status = .failed
  · rw [if_pos hf] at hub ⊢
    rw [if_pos (es.trans hf)]
    exact ⟨rfl, rfl⟩
  rw [if_neg hf] at hub ⊢
  rw [if_neg (es ▸ hf)]
  by_cases hu : v.scriptPubkey.status = .ub
  · rw [if_pos hu] at hub
    exact absurd rfl hub
  rw [if_neg hu] at hub ⊢
  rw [el, es]
  exact ⟨rfl, rfl⟩

/-- Transaction.cpp:145-180 with an allocator that grants what it can. -/
theorem fromStream_at {h : Heap} (w : h.Wf) (g : h.Generous) {o : HTxOut} {v : TxOut} {A : Finset Nat} (a : OutAt o v h A) {s s' : PStream} {r : Nat} {v' : TxOut}
    (e : v.fromStream s = (v', r, s')) (hub : v'.status ≠ .ub) (hq : v.status = .done → v.scriptPubkey.status = .done) :
    ∃ o' h' B, o.fromStream s h = .ok (o', r, s', h') ∧ OutAt o' v' h' B ∧ Step h h' A B := by
  have al := (OutAt.stable _ _).live a
  obtain ⟨eo, h1⟩ := a
  have eo' : o = v.on o.scriptPubkey := eo
  unfold TxOut.fromStream at e
  unfold fromStream
  have es : o.status = v.status := by rw [eo]
  by_cases hs : v.status = .failed ∨ v.status = .ub
  · rw [if_pos hs] at e
    rw [if_pos (es ▸ hs)]
    injection e with e1 e2
    injection e2 with e2 e3
    subst e1 e2 e3
    exact ⟨o, h, A, rfl, ⟨eo, h1⟩, Step.refl w al⟩
  rw [if_neg hs] at e
  rw [if_neg (es ▸ hs)]
  obtain ⟨sc1, hp1, B1, e1, a1, s1⟩ := start_at w h1 hq
  rw [← eo'] at e1
  rw [e1, C.bind_ok]
  dsimp only at e ⊢
  rw [readHead_on]
  dsimp only
  generalize hv1 : v.start.readHead s = t1 at e ⊢
  obtain ⟨v1, br, s1s⟩ := t1
  have k1 : (v.start.readHead s).1.scriptPubkey = v.start.scriptPubkey := rfl
  rw [hv1] at k1
  dsimp only at k1 e ⊢
  generalize hv2 : v1.readScript br s1s = t2 at e ⊢
  obtain ⟨v2, br2, s2s⟩ := t2
  dsimp only at e
  rw [← k1] at a1
  have hv' : (v2.readTail br2 s2s).1.status ≠ .ub := by rw [e]; exact hub
  have hscu : v2.scriptPubkey.status ≠ .ub := by
    intro c
    apply hv'
    unfold TxOut.readTail
    rw [if_neg (by rw [c]; simp), if_pos c]
  obtain ⟨sc2, hp2, B2, e2, a2, s2⟩ := readScript_at s1.wf (s1.generous g) a1 br s1s (by rw [hv2]; exact hscu)
  rw [hv2] at e2 a2
  dsimp only at e2 a2
  rw [e2, C.bind_ok]
  dsimp only
  obtain ⟨e3, k3⟩ := readTail_on v2 a2.1 br2 s2s hv'
  rw [e] at e3 k3
  dsimp only at e3 k3
  rw [e3]
  refine ⟨v'.on sc2, hp2, B2, rfl, ⟨rfl, ?_⟩, s1.trans s2⟩
  show ScriptAt sc2 v'.scriptPubkey hp2 B2
  rw [k3]
  exact a2

end HTxOut

/-! ### Loops -/

/-- The loop that parses all elements of an array. -/
theorem parseAll_at {α β : Type} {P : α → β → HProp} (st : ∀ o v, Stable (P o v)) {fo : α → PStream → Heap → C (α × Nat × PStream × Heap)}
    {fv : β → PStream → β × Nat × PStream} {K : β → Prop} {Q : β → Prop}
    (hf : ∀ {h : Heap} {o : α} {v v' : β} {A : Finset Nat} {s s' : PStream} {r : Nat}, h.Wf → h.Generous → P o v h A → Q v → fv v s = (v', r, s') → K v' →
      ∃ o' h' B, fo o s h = .ok (o', r, s', h') ∧ P o' v' h' B ∧ Step h h' A B) :
    ∀ {os : List α} {vs vs' : List β} {h : Heap} {A : Finset Nat} {s s' : PStream} {r : Nat}, h.Wf → h.Generous → EachAt P os vs h A → (∀ v ∈ vs, Q v) →
      Tx.parseAll fv vs s = (vs', r, s') → (∀ v ∈ vs', K v) →
      ∃ os' h' B, HTx.parseAll fo os s h = .ok (os', r, s', h') ∧ EachAt P os' vs' h' B ∧ Step h h' A B := by
  intro os
  induction os with
  | nil =>
    intro vs vs' h A s s' r w g e hq ev hk
    cases vs with
    | cons _ _ => exact e.elim
    | nil =>
      injection ev with e1 e2
      injection e2 with e2 e3
      subst e1 e2 e3
      rw [show A = ∅ from e]
      exact ⟨[], h, ∅, rfl, rfl, Step.refl w (by simp)⟩
  | cons o os ih =>
    intro vs vs' h A s s' r w g e hq ev hk
    cases vs with
    | nil => exact e.elim
    | cons v vs =>
      obtain ⟨A1, A2, h1, h2, hd, rfl⟩ := e
      rw [Tx.parseAll] at ev
      rcases e1 : fv v s with ⟨v1, n, s1⟩
      rw [e1] at ev
      dsimp only at ev
      rcases e2 : Tx.parseAll fv vs s1 with ⟨vs1, m, s2⟩
      rw [e2] at ev
      injection ev with e3 e4
      injection e4 with e4 e5
      subst e3 e4 e5
      obtain ⟨o1, hp1, B1, x1, p1, k1⟩ := hf w g h1 (hq v (by simp)) e1 (hk v1 (by simp))
      have l1 := (st _ _).live h1
      have l2 := (EachAt.stable st _ _).live h2
      have h2' := (EachAt.stable st _ _).keep w k1 l1 hd.symm h2
      obtain ⟨os1, hp2, B2, x2, p2, k2⟩ := ih k1.wf (k1.generous g) h2' (fun v hv => hq v (by simp [hv])) e2 (fun v hv => hk v (by simp [hv]))
      obtain ⟨k3, d3⟩ := k1.par k2 w l2 hd
      have dB1 : Disjoint B1 A2 := (k1.apart w l2 hd.symm).symm
      refine ⟨o1 :: os1, hp2, B1 ∪ B2, ?_, ⟨B1, B2, (st _ _).keep k1.wf k2 ((EachAt.stable st _ _).live h2') dB1 p1, p2, d3, rfl⟩, k3⟩
      rw [HTx.parseAll, x1, C.bind_ok]
      dsimp only
      rw [x2, C.bind_ok]
      rfl

theorem contLoop_cons {α : Type} (f : α → PStream → Heap → C (α × Nat × PStream × Heap)) (st : α → Status) (x : α) (xs : List α) (s : PStream) (h : Heap) :
    HTx.contLoop f st (x :: xs) s h = ((if s.avail ∧ st x = .incomplete then f x s h else pure (x, 0, s, h)) >>= fun a =>
      if st a.1 = .failed then pure (a.1 :: xs, a.2.1, a.2.2.1, false, a.2.2.2) else HTx.contLoop f st xs a.2.2.1 a.2.2.2 >>= fun b =>
        pure (a.1 :: b.1, a.2.1 + b.2.1, b.2.2.1, b.2.2.2.1, b.2.2.2.2)) := by
  rw [HTx.contLoop]
  simp only [C.ite_bind]

/-- The loop that continues with the incomplete elements of an array. -/
theorem contLoop_at {α β : Type} {P : α → β → HProp} (st : ∀ o v, Stable (P o v)) {fo : α → PStream → Heap → C (α × Nat × PStream × Heap)}
    {fv : β → PStream → β × Nat × PStream} {so : α → Status} {sv : β → Status} {K : β → Prop} (hs : ∀ {o v h A}, P o v h A → so o = sv v) (hK : ∀ v, K v → sv v ≠ .ub)
    (hf : ∀ {h : Heap} {o : α} {v v' : β} {A : Finset Nat} {s s' : PStream} {r : Nat}, h.Wf → h.Generous → P o v h A → sv v = .incomplete → fv v s = (v', r, s') → K v' →
      ∃ o' h' B, fo o s h = .ok (o', r, s', h') ∧ P o' v' h' B ∧ Step h h' A B) :
    ∀ {os : List α} {vs vs' : List β} {h : Heap} {A : Finset Nat} {s s' : PStream} {r : Nat} {b : Bool}, h.Wf → h.Generous → EachAt P os vs h A →
      Tx.contLoop fv sv vs s = (vs', r, s', b) → (∀ v ∈ vs', K v) →
      ∃ os' h' B, HTx.contLoop fo so os s h = .ok (os', r, s', b, h') ∧ EachAt P os' vs' h' B ∧ Step h h' A B := by
  intro os
  induction os with
  | nil =>
    intro vs vs' h A s s' r b w g e ev hk
    cases vs with
    | cons _ _ => exact e.elim
    | nil =>
      injection ev with e1 e2
      injection e2 with e2 e3
      injection e3 with e3 e4
      subst e1 e2 e3 e4
      rw [show A = ∅ from e]
      exact ⟨[], h, ∅, rfl, rfl, Step.refl w (by simp)⟩
  | cons o os ih =>
    intro vs vs' h A s s' r b w g e ev hk
    cases vs with
    | nil => exact e.elim
    | cons v vs =>
      obtain ⟨A1, A2, h1, h2, hd, rfl⟩ := e
      rw [Tx.contLoop] at ev
      rcases e1 : (if s.avail ∧ sv v = .incomplete then fv v s else (v, 0, s)) with ⟨v1, n, s1⟩
      rw [e1] at ev
      dsimp only at ev
      have l1 := (st _ _).live h1
      have l2 := (EachAt.stable st _ _).live h2
      have hv1 : K v1 := by
        by_cases hc : sv v1 = .failed ∨ sv v1 = .ub
        · rw [if_pos hc] at ev
          injection ev with ev _
          subst ev
          exact hk v1 (by simp)
        · rw [if_neg hc] at ev
          injection ev with ev _
          subst ev
          exact hk v1 (by simp)
      obtain ⟨o1, hp1, B1, x1, p1, k1⟩ : ∃ o1 hp1 B1, (if s.avail ∧ so o = .incomplete then fo o s h else pure (o, 0, s, h)) = .ok (o1, n, s1, hp1) ∧
          P o1 v1 hp1 B1 ∧ Step h hp1 A1 B1 := by
        have es := hs h1
        by_cases hc : s.avail ∧ sv v = .incomplete
        · rw [if_pos hc] at e1
          rw [if_pos (es ▸ hc)]
          exact hf w g h1 hc.2 e1 hv1
        · rw [if_neg hc] at e1
          rw [if_neg (es ▸ hc)]
          injection e1 with e1 e2
          injection e2 with e2 e3
          subst e1 e2 e3
          exact ⟨o, h, A1, rfl, h1, Step.refl w l1⟩
      have h2' := (EachAt.stable st _ _).keep w k1 l1 hd.symm h2
      have dB1 : Disjoint B1 A2 := (k1.apart w l2 hd.symm).symm
      have es1 := hs p1
      rw [contLoop_cons, x1, C.bind_ok]
      dsimp only
      by_cases hc : sv v1 = .failed
      · rw [if_pos (Or.inl hc)] at ev
        rw [if_pos (es1.trans hc)]
        injection ev with e2 e3
        injection e3 with e3 e4
        injection e4 with e4 e5
        subst e2 e3 e4 e5
        exact ⟨o1 :: os, hp1, B1 ∪ A2, rfl, ⟨B1, A2, p1, h2', dB1, rfl⟩, k1.frame w A2 (fun q hq hc => Finset.disjoint_left.1 hd hc hq) l2⟩
      · rw [if_neg (fun c => c.elim hc (hK v1 hv1))] at ev
        rw [if_neg (es1 ▸ hc)]
        rcases e2 : Tx.contLoop fv sv vs s1 with ⟨vs1, m, s2, b2⟩
        rw [e2] at ev
        injection ev with e3 e4
        injection e4 with e4 e5
        injection e5 with e5 e6
        subst e3 e4 e5 e6
        obtain ⟨os1, hp2, B2, x2, p2, k2⟩ := ih k1.wf (k1.generous g) h2' e2 (fun v hv => hk v (by simp [hv]))
        obtain ⟨k3, d3⟩ := k1.par k2 w l2 hd
        refine ⟨o1 :: os1, hp2, B1 ∪ B2, ?_, ⟨B1, B2, (st _ _).keep k1.wf k2 ((EachAt.stable st _ _).live h2') dB1 p1, p2, d3, rfl⟩, k3⟩
        rw [x2, C.bind_ok]
        rfl

end UB
