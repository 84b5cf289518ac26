import Verif.Spec.HeapPsbtLoss
import Verif.Lemmas.HeapSep

/-! `TxIn`, `TxOut` and `Tx` objects on the heap against the values of Model/Transaction.lean: construction, copies, assignment,
additions, destruction. Parsing is in Lemmas/HeapTxParse.lean. -/

namespace UB
open Heap

theorem lt62 {n : Nat} (h : n < 2 ^ 62) : n < 2 ^ 63 := by omega

/-! ### Scripts -/

/-- A script between two calls that does not hold a block it could lose: when parsing to the end or when nothing has been read. -/
def HScript.Neat (o : HScript) : Prop :=
  (o.status = .done → o.scriptLen = 0 → o.ptr = 0) ∧
  (o.status = .incomplete → (o.bytesParsed = 0 → o.ptr = 0 ∧ o.scriptLen = 0) ∧ (0 < o.bytesParsed → o.bytesParsed < o.lenLen ∨ 0 < o.scriptLen))

/-- The object `o` has the value `v`. -/
def ScriptAt (o : HScript) (v : Script) : HProp := fun h A =>
  o = HScript.of v o.ptr ∧ At h o.ptr v.arr ∧ v.Sized ∧ o.Neat ∧ A = own o.ptr

theorem own_disjoint {p : Nat} {A : Finset Nat} (d : Disjoint (own p) A) : ∀ q ∈ own p, q ∉ A := fun _ hq => Finset.disjoint_left.1 d hq

theorem ScriptAt.stable (o : HScript) (v : Script) : Stable (ScriptAt o v) := by
  refine ⟨?_, ?_⟩
  · rintro h A ⟨-, a, -, -, rfl⟩
    exact a.owned
  · rintro h h' A A' B' w s - d ⟨e, a, hs, n, rfl⟩
    exact ⟨e, a.keep s w (own_disjoint d), hs, n, rfl⟩

theorem ScriptAt.null (h : Heap) : ScriptAt {} {} h ∅ :=
  ⟨rfl, at_null h, ⟨fun _ => Nat.le_refl 0, by simp⟩, ⟨fun _ _ => rfl, fun c => by cases c⟩, rfl⟩

theorem Script.Sized.fits {v : Script} (h : v.Sized) (hd : v.status = .done) : v.Fits := ⟨h.1 (by simp [hd]), h.2⟩

theorem Script.Fits.toSized {v : Script} (h : v.Fits) : v.Sized := ⟨fun _ => h.1, h.2⟩

namespace HScript

theorem take_status {sc o sc' : HScript} {h h' : Heap} (e : sc.take o h = .ok (sc', h')) : sc'.status = sc.status := by
  unfold take at e
  split at e
  · dsimp only at e
    split at e
    · injection e with e
      injection e with e _
      rw [← e]
    · obtain ⟨bs, -, e⟩ := C.ok_inv e
      obtain ⟨h2, -, e⟩ := C.ok_inv e
      injection e with e
      injection e with e _
      rw [← e]
  · injection e with e
    injection e with e _
    rw [← e]

theorem clear_status {sc sc' : HScript} {h h' : Heap} (e : sc.clear h = .ok (sc', h')) : sc'.status = sc.status := by
  unfold clear at e
  split at e
  · obtain ⟨h2, -, e⟩ := C.ok_inv e
    injection e with e
    injection e with e _
    rw [← e]
  · injection e with e
    injection e with e _
    rw [← e]

theorem assign_status {sc o sc' : HScript} {h h' : Heap} (e : sc.assign o h = .ok (sc', h')) : sc'.status = .done := by
  unfold assign at e
  obtain ⟨⟨sc1, h1⟩, e1, e⟩ := C.ok_inv e
  rw [take_status e, clear_status e1]

/-- Script.cpp:495-503. -/
theorem copy_at {h : Heap} (w : h.Wf) {o : HScript} {v : Script} {A : Finset Nat} (a : ScriptAt o v h A) (hf : v.Fits) :
    ∃ o' v' h' B, o.copy h = .ok (o', h') ∧ ScriptAt o' v' h' B ∧ v'.status = .done ∧ Step h h' ∅ B ∧
      (h.Generous → v.scriptLen < 2 ^ 63 → v' = v.copy) := by
  obtain ⟨eo, a, hs, -, -⟩ := a
  rw [eo]
  obtain ⟨v', p', h', e, a', hf', s, hg, hp⟩ := copy_ok w a hf
  have st : v'.status = .done := take_status e
  exact ⟨of v' p', v', h', own p', e, ⟨rfl, a', hf'.toSized, ⟨fun _ => hp, fun c => by rw [show (of v' p').status = .done from st] at c; cases c⟩, rfl⟩, st, s, hg⟩

/-- Script.cpp:483-494: from any object that holds the bytes. -/
theorem assign_raw {h : Heap} (w : h.Wf) {o : HScript} {v vo : Script} {po : Nat} {A : Finset Nat} (a : ScriptAt o v h A) (ao : At h po vo.arr) (hd : v.status = .done)
    (hf : vo.Fits) (d : Disjoint (own po) A) :
    ∃ o' v' h' B, o.assign (of vo po) h = .ok (o', h') ∧ ScriptAt o' v' h' B ∧ v'.status = .done ∧ Step h h' A B ∧
      (h.Generous → vo.scriptLen < 2 ^ 63 → v' = v.assign vo) := by
  obtain ⟨eo, a, hs, n, rfl⟩ := a
  have es : o.status = v.status := by rw [eo]; rfl
  have el : o.scriptLen = v.scriptLen := by rw [eo]; rfl
  obtain ⟨v', p', h', E, e, a', hf', m, ht, hg, hp⟩ := assign_ok w a ao (hs.fits hd) hf (own_disjoint d)
  have tidy : v.scriptLen = 0 → o.ptr = 0 := fun c => n.1 (es.trans hd) (el.trans c)
  have st : v'.status = .done := assign_status e
  rw [ht tidy] at m
  refine ⟨of v' p', v', h', own p', ?_, ⟨rfl, a', hf'.toSized, ⟨fun _ => hp tidy, fun c => by rw [show (of v' p').status = .done from st] at c; cases c⟩, rfl⟩,
    st, by simpa using m.1, hg⟩
  rw [eo]
  exact e

/-- Script.cpp:483-494. -/
theorem assign_at {h : Heap} (w : h.Wf) {o oo : HScript} {v vo : Script} {A D : Finset Nat} (a : ScriptAt o v h A) (ao : ScriptAt oo vo h D) (hd : v.status = .done)
    (hf : vo.Fits) (d : Disjoint D A) :
    ∃ o' v' h' B, o.assign oo h = .ok (o', h') ∧ ScriptAt o' v' h' B ∧ v'.status = .done ∧ Step h h' A B ∧
      (h.Generous → vo.scriptLen < 2 ^ 63 → v' = v.assign vo) := by
  obtain ⟨eo, ao, -, -, rfl⟩ := ao
  rw [eo]
  exact assign_raw w a ao hd hf d

theorem destroy_at {h : Heap} (w : h.Wf) {o : HScript} {v : Script} {A : Finset Nat} (a : ScriptAt o v h A) :
    ∃ h', o.destroy h = .ok h' ∧ Step h h' A ∅ := by
  obtain ⟨eo, a, -, -, rfl⟩ := a
  obtain ⟨h', e, s⟩ := destroy_ok w a
  exact ⟨h', by rw [eo]; exact e, s⟩

/-- Script.cpp:136-139 followed by an assignment and the end of the temporary object. -/
theorem temp_at {h : Heap} (w : h.Wf) {o : HScript} {v : Script} {A : Finset Nat} (a : ScriptAt o v h A) (hd : v.status = .done) (data : Bytes) :
    ∃ arg h1 o' v' h2 h3 B, ofBuffer data h = .ok (arg, h1) ∧ o.assign arg h1 = .ok (o', h2) ∧ arg.destroy h2 = .ok h3 ∧
      ScriptAt o' v' h3 B ∧ v'.status = .done ∧ Step h h3 A B ∧ (h.Generous → v' = v.assign (Script.ofBuffer data)) := by
  obtain ⟨va, pa, r, h1, E, e1, a1, f1, m1, t1, g1, -⟩ := pushData_ok w (v := {}) (p := 0) (at_null h) ⟨Nat.le_refl 0, by simp⟩ data
  rw [t1 (fun _ => rfl)] at m1
  have s1 : Step h h1 ∅ (own pa) := by simpa using m1.1
  have hl := (ScriptAt.stable o v).live a
  have dA : Disjoint A (own pa) := s1.apart w hl (by simp)
  obtain ⟨o', v', h2, B, e2, a2, st2, s2, g2⟩ := assign_raw s1.wf ((ScriptAt.stable o v).keep w s1 (by simp) (by simp) a) a1 hd f1 dA.symm
  have a1' : At h2 pa va.arr := a1.keep s2 s1.wf (own_disjoint dA.symm)
  obtain ⟨h3, e3, s3⟩ := destroy_ok s2.wf a1'
  obtain ⟨sd, dB⟩ := Step.during w s1 s2 s3 hl
  refine ⟨of va pa, h1, o', v', h2, h3, B, ?_, e2, e3, ?_, st2, sd, ?_⟩
  · unfold ofBuffer
    show (do let (sc, _, h) ← HScript.pushData (of {} 0) data h; return (sc, h)) = _
    rw [e1, C.bind_ok]
    rfl
  · exact (ScriptAt.stable o' v').keep s2.wf s3 a1'.owned dB.symm a2
  · intro g
    have e := g1 g
    have ev : va = Script.ofBuffer data := by
      unfold Script.ofBuffer
      rw [← e]
    rw [g2 (s1.generous g), ev]
    unfold Script.ofBuffer at ev
    rw [ev]
    unfold Script.pushData
    split
    · simp [Script.clear]
    · rename_i hc
      unfold Script.maxScriptSize at hc
      simp only at hc ⊢
      omega

end HScript

/-! ### Witnesses -/

/-- The object `o` has the value `v`; the flag says whether it has held bytes in its life. -/
def WitAt (o : HWitness) (v : Witness × Bool) : HProp := fun h A =>
  o = HWitness.of v.1 o.ptr ∧ WAt h o.ptr v.1.arr (decide (v.1.arr = []) && v.2) ∧ (v.1.arr ≠ [] → v.2 = true) ∧ A = own (wptr o.ptr v.1.arr)

theorem WitAt.stable (o : HWitness) (v : Witness × Bool) : Stable (WitAt o v) := by
  refine ⟨?_, ?_⟩
  · rintro h A ⟨-, a, -, rfl⟩
    exact a.at.owned
  · rintro h h' A A' B' w s hl d ⟨e, a, hs, rfl⟩
    exact ⟨e, a.keep s w hl (own_disjoint d), hs, rfl⟩

theorem WitAt.null {h : Heap} (w : h.Wf) : WitAt {} ({}, false) h ∅ :=
  ⟨rfl, wat_nil w.null (Nat.zero_le _) (by simp), fun c => absurd rfl c, rfl⟩

/-- A witness which had held bytes (`ever`) and is now `v`. -/
def Witness.since (v : Witness) (ever : Bool) : Witness × Bool := (v, ever || decide (v.arr ≠ []))

theorem WitAt.of {h : Heap} {v : Witness} {p : Nat} {st : Bool} (a : WAt h p v.arr st) :
    WitAt (HWitness.of v p) (v, if v.arr = [] then st else true) h (own (wptr p v.arr)) := by
  refine ⟨rfl, ?_, fun hb => if_neg hb, rfl⟩
  dsimp only
  by_cases hb : v.arr = []
  · rw [if_pos hb]
    rw [hb] at a ⊢
    show WAt h p [] _
    simpa using a
  · exact wat_some _ hb (a.block hb)

/-- The flag of a witness after a change. -/
theorem flag_eq {old new : Bytes} {e st : Bool} (he : old ≠ [] → e = true) (h : st = restale old new (decide (old = []) && e)) :
    (if new = [] then st else true) = (e || decide (new ≠ [])) := by
  subst h
  by_cases hn : new = []
  · rw [if_pos hn]
    by_cases ho : old = []
    · simp [restale, hn, ho]
    · simp [restale, hn, ho, he ho]
  · simp [hn]

namespace HWitness

/-- A witness that cannot be destroyed: it holds no bytes and has held some. -/
def stale (v : Witness × Bool) : Prop := v.1.arr = [] ∧ v.2 = true

theorem take_null {w0 o o' : HWitness} {h h' : Heap} (h0 : w0.ptr = 0) (e : w0.take o h = .ok (o', h')) : o'.ptr = 0 ∨ 0 < o'.witnessLen := by
  unfold take at e
  split at e
  · rename_i hl
    dsimp only at e
    split at e
    · rename_i hp
      injection e with e
      injection e with e _
      rw [← e]
      exact Or.inl hp
    · obtain ⟨bs, -, e⟩ := C.ok_inv e
      obtain ⟨h2, -, e⟩ := C.ok_inv e
      injection e with e
      injection e with e _
      rw [← e]
      exact Or.inr hl
  · injection e with e
    injection e with e _
    rw [← e]
    exact Or.inl h0

theorem not_stale {o : HWitness} {v : Witness × Bool} {h : Heap} {A : Finset Nat} (a : WitAt o v h A) (ho : o.ptr = 0 ∨ 0 < o.witnessLen) : ¬ stale v := by
  rintro ⟨h1, h2⟩
  obtain ⟨eo, a, -⟩ := a
  rcases ho with ho | ho
  · rw [h1] at a
    have := a.gone.2.2.1 (by simp [h2])
    exact this ho
  · rw [eo] at ho
    simp [HWitness.of, h1] at ho

/-- Script.cpp:694-703. -/
theorem copy_at {h : Heap} (w : h.Wf) {o : HWitness} {v : Witness × Bool} {A : Finset Nat} (a : WitAt o v h A) :
    ∃ o' v' h' B, o.copy h = .ok (o', h') ∧ WitAt o' v' h' B ∧ ¬ stale v' ∧ Step h h' ∅ B ∧
      (h.Generous → v.1.arr.length < 2 ^ 63 → v' = v.1.copy.since false) := by
  obtain ⟨eo, a, -, -⟩ := a
  rw [eo]
  obtain ⟨v', p', st', h', e, a', s, hg⟩ := copy_ok w a
  refine ⟨_, _, h', _, e, WitAt.of a', not_stale (WitAt.of a') (take_null rfl e), s, fun g hl => ?_⟩
  obtain ⟨h1, h2⟩ := hg g hl
  subst h1 h2
  unfold Witness.since
  by_cases hb : v.1.copy.arr = [] <;> simp [hb]

/-- Script.cpp:704-715. -/
theorem assign_at {h : Heap} (w : h.Wf) {o oo : HWitness} {v vo : Witness × Bool} {A D : Finset Nat} (a : WitAt o v h A) (ao : WitAt oo vo h D) (d : Disjoint D A) :
    ∃ o' v' h' B, o.assign oo h = .ok (o', h') ∧ WitAt o' v' h' B ∧ (o.ptr = 0 → ¬ stale v') ∧ Step h h' A B ∧
      (h.Generous → vo.1.arr.length < 2 ^ 63 → v' = (v.1.assign vo.1).since v.2) := by
  obtain ⟨eo, a, he, rfl⟩ := a
  obtain ⟨eoo, ao, -, rfl⟩ := ao
  rw [eo, eoo]
  obtain ⟨v', p', st', h', e, a', s, hg⟩ := assign_ok w a ao (own_disjoint d)
  refine ⟨_, _, h', _, e, WitAt.of a', fun h0 => not_stale (WitAt.of a') ?_, s, fun g hl => ?_⟩
  · unfold assign at e
    obtain ⟨⟨o1, h1⟩, e1, e⟩ := C.ok_inv e
    refine take_null ?_ e
    unfold clear at e1
    split at e1
    · obtain ⟨h2, -, e1⟩ := C.ok_inv e1
      injection e1 with e1
      injection e1 with e1 _
      rw [← e1]
      exact h0
    · injection e1 with e1
      injection e1 with e1 _
      rw [← e1]
      exact h0
  obtain ⟨h1, h2⟩ := hg g hl
  rw [flag_eq he h2, h1]
  rfl

/-- Script.cpp:651-669. -/
theorem push_at {h : Heap} (w : h.Wf) {o : HWitness} {v : Witness × Bool} {A : Finset Nat} (a : WitAt o v h A) (data : Bytes) :
    ∃ o' v' r h' B, o.push data h = .ok (o', r, h') ∧ WitAt o' v' h' B ∧ Step h h' A B ∧
      (h.Generous → ∃ u, v.1.push data = .ok (u, r) ∧ v' = u.since v.2) := by
  obtain ⟨eo, a, he, rfl⟩ := a
  rw [eo]
  obtain ⟨v', p', st', r, h', e, a', s, hg⟩ := push_ok w a data
  refine ⟨_, _, r, h', _, e, WitAt.of a', s, fun g => ?_⟩
  obtain ⟨h1, h2⟩ := hg g
  exact ⟨v', h1, by rw [flag_eq he h2]; rfl⟩

/-- Script.cpp:507-513. -/
theorem clear_at {h : Heap} (w : h.Wf) {o : HWitness} {v : Witness × Bool} {A : Finset Nat} (a : WitAt o v h A) :
    ∃ o' h', o.clear h = .ok (o', h') ∧ WitAt o' (v.1.clear.since v.2) h' ∅ ∧ Step h h' A ∅ := by
  obtain ⟨eo, a, he, rfl⟩ := a
  rw [eo]
  obtain ⟨h', e, a', s⟩ := clear_ok w a
  refine ⟨_, h', e, ?_, s⟩
  have := WitAt.of (v := v.1.clear) a'
  have ea : v.1.clear.arr = [] := rfl
  rw [ea, if_pos rfl] at this
  unfold Witness.since
  rw [ea]
  have ef : (decide (v.1.arr = []) && v.2 || decide (v.1.arr ≠ [])) = (v.2 || decide (([] : Bytes) ≠ [])) := by
    by_cases hb : v.1.arr = []
    · simp [hb]
    · simp [hb, he hb]
  rw [ef] at this
  simpa using this

theorem destroy_at {h : Heap} (w : h.Wf) {o : HWitness} {v : Witness × Bool} {A : Finset Nat} (a : WitAt o v h A) (hs : ¬ stale v) :
    ∃ h', o.destroy h = .ok h' ∧ Step h h' A ∅ := by
  obtain ⟨eo, a, -, rfl⟩ := a
  rw [eo]
  obtain ⟨h', e, s⟩ := destroy_ok w a (fun c => hs ⟨c.1, by simpa [c.1] using c.2⟩)
  exact ⟨h', e, s⟩

theorem destroy_at_ub {h : Heap} {o : HWitness} {v : Witness × Bool} {A : Finset Nat} (a : WitAt o v h A) (hs : stale v) : o.destroy h = .ub := by
  obtain ⟨eo, a, -, rfl⟩ := a
  rw [eo]
  exact destroy_ub a ⟨hs.1, by simp [hs.1, hs.2]⟩

end HWitness

/-! ### Inputs -/

/-- The object `o` has the value `v`; the flag says whether its witness has held bytes in its life. -/
def InAt (o : HTxIn) (v : TxIn × Bool) : HProp := fun h A =>
  o = ⟨v.1.status, v.1.bytesParsed, v.1.hash, v.1.outputIndex, o.scriptSig, v.1.sequence, o.witness⟩ ∧
  ∃ A1 A2, ScriptAt o.scriptSig v.1.scriptSig h A1 ∧ WitAt o.witness (v.1.witness, v.2) h A2 ∧ Disjoint A1 A2 ∧ A = A1 ∪ A2

theorem InAt.stable (o : HTxIn) (v : TxIn × Bool) : Stable (InAt o v) := by
  refine ⟨?_, ?_⟩
  · rintro h A ⟨-, A1, A2, h1, h2, -, rfl⟩ q hq
    rcases Finset.mem_union.1 hq with hq | hq
    · exact (ScriptAt.stable _ _).live h1 q hq
    · exact (WitAt.stable _ _).live h2 q hq
  · rintro h h' A A' B' w s hl d ⟨e, A1, A2, h1, h2, hd, rfl⟩
    rw [Finset.disjoint_union_left] at d
    exact ⟨e, A1, A2, (ScriptAt.stable _ _).keep w s hl d.1 h1, (WitAt.stable _ _).keep w s hl d.2 h2, hd, rfl⟩

theorem InAt.null {h : Heap} (w : h.Wf) : InAt {} ({}, false) h ∅ := ⟨rfl, ∅, ∅, ScriptAt.null h, WitAt.null w, by simp, by simp⟩

/-- The input `v`, whose witness has held bytes or (`ever`) is known to have held some. -/
def TxIn.since (v : TxIn) (ever : Bool) : TxIn × Bool := (v, ever || decide (v.witness.arr ≠ []))

/-- No size near the limits of the machine. -/
def TxIn.Small (v : TxIn) : Prop := v.scriptSig.scriptLen < 2 ^ 63 ∧ v.witness.arr.length < 2 ^ 63

def TxOut.Small (v : TxOut) : Prop := v.scriptPubkey.scriptLen < 2 ^ 63

namespace HTxIn

/-- An input that cannot be destroyed. -/
def stale (v : TxIn × Bool) : Prop := v.1.witness.arr = [] ∧ v.2 = true

theorem copy_at {h : Heap} (w : h.Wf) {o : HTxIn} {v : TxIn × Bool} {A : Finset Nat} (a : InAt o v h A) (hf : v.1.scriptSig.Fits) :
    ∃ o' v' h' B, o.copy h = .ok (o', h') ∧ InAt o' v' h' B ∧ (v'.1.scriptSig.status = .done ∧ ¬ stale v') ∧ Step h h' ∅ B ∧
      (h.Generous → v.1.Small → v' = v.1.copy.since false) := by
  obtain ⟨eo, A1, A2, h1, h2, hd, rfl⟩ := a
  obtain ⟨sc, vs, hp1, B1, e1, a1, st1, s1, g1⟩ := HScript.copy_at w h1 hf
  obtain ⟨wi, vw, hp2, B2, e2, a2, ns2, s2, g2⟩ := HWitness.copy_at s1.wf ((WitAt.stable _ _).keep w s1 (by simp) (by simp) h2)
  obtain ⟨s3, d3⟩ := s1.new2 s2 w
  refine ⟨{ o with scriptSig := sc, witness := wi }, ({ v.1 with scriptSig := vs, witness := vw.1 }, vw.2), hp2, B1 ∪ B2, ?_, ⟨by rw [eo], B1, B2,
    (ScriptAt.stable _ _).keep s1.wf s2 (by simp) (by simp) a1, a2, d3, rfl⟩, ⟨st1, ns2⟩, s3, fun g sm => ?_⟩
  · unfold copy
    rw [e1, C.bind_ok]
    dsimp only
    rw [e2, C.bind_ok]
    rfl
  · rw [g1 g sm.1, g2 (s1.generous g) sm.2]
    rfl

theorem assign_at {h : Heap} (w : h.Wf) {o oo : HTxIn} {v vo : TxIn × Bool} {A D : Finset Nat} (a : InAt o v h A) (ao : InAt oo vo h D)
    (hst : v.1.scriptSig.status = .done) (hf : vo.1.scriptSig.Fits) (d : Disjoint D A) :
    ∃ o' v' h' B, o.assign oo h = .ok (o', h') ∧ InAt o' v' h' B ∧ (v'.1.scriptSig.status = .done ∧ (o.witness.ptr = 0 → ¬ stale v')) ∧ Step h h' A B ∧
      (h.Generous → vo.1.Small → v' = (v.1.assign vo.1).since v.2) := by
  obtain ⟨eo, A1, A2, h1, h2, hd, rfl⟩ := a
  obtain ⟨eoo, D1, D2, k1, k2, kd, rfl⟩ := ao
  rw [Finset.disjoint_union_left, Finset.disjoint_union_right, Finset.disjoint_union_right] at d
  obtain ⟨sc, vs, hp1, B1, e1, a1, st1, s1, g1⟩ := HScript.assign_at w h1 k1 hst hf d.1.1
  have l1 := (ScriptAt.stable _ _).live h1
  obtain ⟨wi, vw, hp2, B2, e2, a2, ns2, s2, g2⟩ := HWitness.assign_at s1.wf ((WitAt.stable _ _).keep w s1 l1 hd.symm h2)
    ((WitAt.stable _ _).keep w s1 l1 d.2.1 k2) d.2.2
  have l2 := (WitAt.stable _ _).live h2
  obtain ⟨s3, d3⟩ := s1.par s2 w l2 hd
  have dB1 : Disjoint B1 A2 := (s1.apart w l2 hd.symm).symm
  refine ⟨{ oo with scriptSig := sc, witness := wi }, ({ vo.1 with scriptSig := vs, witness := vw.1 }, vw.2), hp2, B1 ∪ B2, ?_, ⟨by rw [eoo], B1, B2,
    (ScriptAt.stable _ _).keep s1.wf s2 (s1.alive w l2 hd.symm) dB1 a1, a2, d3, rfl⟩, ⟨st1, ns2⟩, s3, fun g sm => ?_⟩
  · unfold assign
    rw [e1, C.bind_ok]
    dsimp only
    rw [e2, C.bind_ok]
    rfl
  · rw [g1 g sm.1, g2 (s1.generous g) sm.2]
    rfl

/-- Assignment to a new object, as when arrays are copied. -/
theorem fresh_at {h : Heap} (w : h.Wf) {o : HTxIn} {v : TxIn × Bool} {A : Finset Nat} (a : InAt o v h A) (hf : v.1.scriptSig.Fits) :
    ∃ o' v' h' B, ({} : HTxIn).assign o h = .ok (o', h') ∧ InAt o' v' h' B ∧ (v'.1.scriptSig.status = .done ∧ ¬ stale v') ∧ Step h h' ∅ B ∧
      (h.Generous → v.1.Small → v' = (({} : TxIn).assign v.1).since false) := by
  obtain ⟨o', v', h', B, h1, h2, h3, h4, h5⟩ := assign_at w (InAt.null w) a rfl hf (by simp)
  exact ⟨o', v', h', B, h1, h2, ⟨h3.1, h3.2 rfl⟩, h4, h5⟩

theorem destroy_at {h : Heap} (w : h.Wf) {o : HTxIn} {v : TxIn × Bool} {A : Finset Nat} (a : InAt o v h A) (hs : ¬ stale v) :
    ∃ h', o.destroy h = .ok h' ∧ Step h h' A ∅ := by
  obtain ⟨-, A1, A2, h1, h2, hd, rfl⟩ := a
  obtain ⟨hp1, e1, s1⟩ := HWitness.destroy_at w h2 hs
  obtain ⟨hp2, e2, s2⟩ := HScript.destroy_at s1.wf ((ScriptAt.stable _ _).keep w s1 ((WitAt.stable _ _).live h2) hd h1)
  refine ⟨hp2, ?_, ?_⟩
  · unfold destroy
    rw [e1, C.bind_ok]
    exact e2
  · rw [Finset.union_comm]
    exact s1.gone2 s2 w ((ScriptAt.stable _ _).live h1) hd.symm

theorem destroy_at_ub {h : Heap} {o : HTxIn} {v : TxIn × Bool} {A : Finset Nat} (a : InAt o v h A) (hs : stale v) : o.destroy h = .ub := by
  obtain ⟨-, A1, A2, h1, h2, hd, rfl⟩ := a
  unfold destroy
  rw [HWitness.destroy_at_ub h2 hs]
  rfl

/-- The value of Transaction.cpp:37-44. -/
def _root_.UB.TxIn.make (prevId : Bytes) (idx : UInt32) (data : Bytes) (seq : UInt32) : TxIn :=
  { outputIndex := idx, sequence := seq, hash := prevId.reverse, scriptSig := ({} : Script).assign (Script.ofBuffer data) }

theorem make_at {h : Heap} (w : h.Wf) (prevId : Bytes) (idx : UInt32) (data : Bytes) (seq : UInt32) :
    ∃ o v h' B, make prevId idx data seq h = .ok (o, h') ∧ InAt o (v, false) h' B ∧ v.scriptSig.status = .done ∧ Step h h' ∅ B ∧
      (h.Generous → v = TxIn.make prevId idx data seq) := by
  obtain ⟨arg, h1, o', v', h2, h3, B, e1, e2, e3, a, st, s, g⟩ := HScript.temp_at w (ScriptAt.null h) rfl data
  refine ⟨{ outputIndex := idx, sequence := seq, hash := prevId.reverse, scriptSig := o' },
    { outputIndex := idx, sequence := seq, hash := prevId.reverse, scriptSig := v' }, h3, B, ?_, ⟨rfl, B, ∅, a, WitAt.null s.wf, by simp, by simp⟩, st, s, fun gg => ?_⟩
  · unfold make
    rw [e1, C.bind_ok]
    dsimp only
    rw [e2, C.bind_ok]
    dsimp only
    rw [e3, C.bind_ok]
    rfl
  · rw [g gg]
    rfl

end HTxIn

/-! ### Outputs -/

/-- The object `o` has the value `v`. -/
def OutAt (o : HTxOut) (v : TxOut) : HProp := fun h A =>
  o = ⟨v.status, v.bytesParsed, v.tmp, v.amount, o.scriptPubkey⟩ ∧ ScriptAt o.scriptPubkey v.scriptPubkey h A

theorem OutAt.stable (o : HTxOut) (v : TxOut) : Stable (OutAt o v) :=
  ⟨fun h => (ScriptAt.stable _ _).live h.2, fun w s hl d h => ⟨h.1, (ScriptAt.stable _ _).keep w s hl d h.2⟩⟩

theorem OutAt.null (h : Heap) : OutAt {} {} h ∅ := ⟨rfl, ScriptAt.null h⟩

namespace HTxOut

theorem copy_at {h : Heap} (w : h.Wf) {o : HTxOut} {v : TxOut} {A : Finset Nat} (a : OutAt o v h A) (hf : v.scriptPubkey.Fits) :
    ∃ o' v' h' B, o.copy h = .ok (o', h') ∧ OutAt o' v' h' B ∧ v'.scriptPubkey.status = .done ∧ Step h h' ∅ B ∧
      (h.Generous → v.Small → v' = v.copy) := by
  obtain ⟨eo, a⟩ := a
  obtain ⟨sc, vs, hp1, B1, e1, a1, st1, s1, g1⟩ := HScript.copy_at w a hf
  refine ⟨{ o with scriptPubkey := sc }, { v with scriptPubkey := vs }, hp1, B1, ?_, ⟨by rw [eo], a1⟩, st1, s1, fun g sm => ?_⟩
  · unfold copy
    rw [e1, C.bind_ok]
    rfl
  · rw [g1 g sm]
    rfl

theorem assign_at {h : Heap} (w : h.Wf) {o oo : HTxOut} {v vo : TxOut} {A D : Finset Nat} (a : OutAt o v h A) (ao : OutAt oo vo h D)
    (hst : v.scriptPubkey.status = .done) (hf : vo.scriptPubkey.Fits) (d : Disjoint D A) :
    ∃ o' v' h' B, o.assign oo h = .ok (o', h') ∧ OutAt o' v' h' B ∧ v'.scriptPubkey.status = .done ∧ Step h h' A B ∧
      (h.Generous → vo.Small → v' = v.assign vo) := by
  obtain ⟨eo, a⟩ := a
  obtain ⟨eoo, ao⟩ := ao
  obtain ⟨sc, vs, hp1, B1, e1, a1, st1, s1, g1⟩ := HScript.assign_at w a ao hst hf d
  refine ⟨{ oo with scriptPubkey := sc }, { vo with scriptPubkey := vs }, hp1, B1, ?_, ⟨by rw [eoo], a1⟩, st1, s1, fun g sm => ?_⟩
  · unfold assign
    rw [e1, C.bind_ok]
    rfl
  · rw [g1 g sm]
    rfl

theorem fresh_at {h : Heap} (w : h.Wf) {o : HTxOut} {v : TxOut} {A : Finset Nat} (a : OutAt o v h A) (hf : v.scriptPubkey.Fits) :
    ∃ o' v' h' B, ({} : HTxOut).assign o h = .ok (o', h') ∧ OutAt o' v' h' B ∧ v'.scriptPubkey.status = .done ∧ Step h h' ∅ B ∧
      (h.Generous → v.Small → v' = ({} : TxOut).assign v) :=
  assign_at w (OutAt.null h) a rfl hf (by simp)

theorem destroy_at {h : Heap} (w : h.Wf) {o : HTxOut} {v : TxOut} {A : Finset Nat} (a : OutAt o v h A) :
    ∃ h', o.destroy h = .ok h' ∧ Step h h' A ∅ := HScript.destroy_at w a.2

/-- The value of Bitcoin.h:633. -/
def _root_.UB.TxOut.make (amount : UInt64) (data : Bytes) : TxOut := { amount := amount, scriptPubkey := ({} : Script).assign (Script.ofBuffer data) }

theorem make_at {h : Heap} (w : h.Wf) (amount : UInt64) (data : Bytes) :
    ∃ o v h' B, make amount data h = .ok (o, h') ∧ OutAt o v h' B ∧ v.scriptPubkey.status = .done ∧ Step h h' ∅ B ∧
      (h.Generous → v = TxOut.make amount data) := by
  obtain ⟨arg, h1, o', v', h2, h3, B, e1, e2, e3, a, st, s, g⟩ := HScript.temp_at w (ScriptAt.null h) rfl data
  refine ⟨{ amount := amount, scriptPubkey := o' }, { amount := amount, scriptPubkey := v' }, h3, B, ?_, ⟨rfl, a⟩, st, s, fun gg => ?_⟩
  · unfold make
    rw [e1, C.bind_ok]
    dsimp only
    rw [e2, C.bind_ok]
    dsimp only
    rw [e3, C.bind_ok]
    rfl
  · rw [g gg]
    rfl

end HTxOut

/-! ### Transactions -/

/-- The object `o` has the value `v`; `u` are its inputs, each with whether its witness has held bytes in its life. -/
def TxAt (o : HTx) (v : Tx) (u : List (TxIn × Bool)) : HProp := fun h A =>
  o = ⟨v.status, v.bytesParsed, v.segwitFlag, v.version, o.inPtr, o.txIns, o.outPtr, o.txOuts, v.locktime⟩ ∧ v.txIns = u.map Prod.fst ∧
  ∃ A1 A2, ArrAt InAt o.inPtr o.txIns u h A1 ∧ ArrAt OutAt o.outPtr o.txOuts v.txOuts h A2 ∧ Disjoint A1 A2 ∧ A = A1 ∪ A2

theorem insStable (p : Nat) (os : List HTxIn) (vs : List (TxIn × Bool)) : Stable (ArrAt InAt p os vs) := ArrAt.stable InAt.stable p os vs

theorem outsStable (p : Nat) (os : List HTxOut) (vs : List TxOut) : Stable (ArrAt OutAt p os vs) := ArrAt.stable OutAt.stable p os vs

theorem TxAt.stable (o : HTx) (v : Tx) (u : List (TxIn × Bool)) : Stable (TxAt o v u) := by
  refine ⟨?_, ?_⟩
  · rintro h A ⟨-, -, A1, A2, h1, h2, -, rfl⟩ q hq
    rcases Finset.mem_union.1 hq with hq | hq
    · exact (insStable _ _ _).live h1 q hq
    · exact (outsStable _ _ _).live h2 q hq
  · rintro h h' A A' B' w s hl d ⟨e, eu, A1, A2, h1, h2, hd, rfl⟩
    rw [Finset.disjoint_union_left] at d
    exact ⟨e, eu, A1, A2, (insStable _ _ _).keep w s hl d.1 h1, (outsStable _ _ _).keep w s hl d.2 h2, hd, rfl⟩

theorem TxAt.null (h : Heap) : TxAt {} {} [] h ∅ := ⟨rfl, rfl, ∅, ∅, ArrAt.nil 0 h, ArrAt.nil 0 h, by simp, by simp⟩

/-- No script of the transaction is in the middle of a length prefix. -/
def Tx.AllFits (v : Tx) : Prop := (∀ i ∈ v.txIns, i.scriptSig.Fits) ∧ ∀ o ∈ v.txOuts, o.scriptPubkey.Fits

/-- All scripts of the transaction are complete. -/
def Tx.AllDone (v : Tx) : Prop := (∀ i ∈ v.txIns, i.scriptSig.status = .done) ∧ ∀ o ∈ v.txOuts, o.scriptPubkey.status = .done

def Tx.Small (v : Tx) : Prop := (∀ i ∈ v.txIns, i.Small) ∧ ∀ o ∈ v.txOuts, o.Small

/-- A new array: the block belongs to it if it has elements. -/
theorem Heap.ArrAt.make {α β : Type} {P : α → β → HProp} {p : Nat} {os : List α} {vs : List β} {h : Heap} {B : Finset Nat} (e : EachAt P os vs h B)
    (hp : h.blocks p ≠ none) (hn : p ∉ B) :
    ∃ A E, ArrAt P p os vs h A ∧ {p} ∪ B = A ∪ E ∧ Disjoint A E ∧ E.card = if vs = [] then 1 else 0 := by
  have hl := e.length
  by_cases ho : os = []
  · subst ho
    have hv : vs = [] := List.length_eq_zero_iff.1 hl.symm
    subst hv
    rw [show B = ∅ from e]
    exact ⟨∅, {p}, ArrAt.nil p h, by simp, by simp, by simp⟩
  · have hv : vs ≠ [] := by rintro rfl; exact ho (List.length_eq_zero_iff.1 hl)
    exact ⟨insert p B, ∅, ⟨B, e, fun c => absurd c ho, fun _ => ⟨hp, hn, rfl⟩⟩, by rw [Finset.insert_eq]; simp, by simp, by simp [hv]⟩

theorem mem_fst {u : List (TxIn × Bool)} {Q : TxIn → Prop} (h : ∀ i ∈ u.map Prod.fst, Q i) : ∀ v ∈ u, Q v.1 :=
  fun v hv => h v.1 (List.mem_map_of_mem hv)

theorem fst_mem {u : List (TxIn × Bool)} {Q : TxIn → Prop} (h : ∀ v ∈ u, Q v.1) : ∀ i ∈ u.map Prod.fst, Q i := by
  intro i hi
  obtain ⟨v, hv, rfl⟩ := List.mem_map.1 hi
  exact h v hv

namespace HTx

/-- Transaction.cpp:217-228, 241-252. -/
theorem take_at {h : Heap} (w : h.Wf) (self : HTx) {o : HTx} {v : Tx} {u : List (TxIn × Bool)} {D : Finset Nat} (a : TxAt o v u h D) (hf : v.AllFits) :
    ∃ o' v' u' h' B E, self.take o h = .ok (o', h') ∧ TxAt o' v' u' h' B ∧ (v'.AllDone ∧ ∀ i ∈ u', ¬ HTxIn.stale i) ∧ Step h h' ∅ (B ∪ E) ∧ Disjoint B E ∧
      E.card = v.emptyArrays ∧ (h.Generous → v.Small → v' = v.copy ∧ u' = u.map fun i => (({} : TxIn).assign i.1).since false) := by
  obtain ⟨eo, eu, A1, A2, h1, h2, hd, rfl⟩ := a
  obtain ⟨p, hp1, n1, s1, b1⟩ := new_get w
  have w1 := s1.wf
  obtain ⟨q, hp2, n2, s2, b2⟩ := new_get w1
  have w2 := s2.wf
  obtain ⟨s12, d12⟩ := s1.new2 s2 w
  have k1 := (insStable _ _ _).keep w s12 (by simp) (by simp) h1
  have k2 := (outsStable _ _ _).keep w s12 (by simp) (by simp) h2
  obtain ⟨A1', e1, -⟩ := k1.each
  obtain ⟨ins, vi, h3, B1, ei, pi, ⟨ri, li⟩, s3, gi⟩ := eachH_ok InAt.stable (f := fun o => ({} : HTxIn).assign o) (g := fun i => (({} : TxIn).assign i.1).since false)
    (Q := fun i => i.1.scriptSig.Fits) (R := fun i => i.1.scriptSig.status = .done ∧ ¬ HTxIn.stale i) (S := fun i => i.1.Small)
    (fun w a q => HTxIn.fresh_at w a q) w2 e1 (mem_fst (eu ▸ hf.1))
  have w3 := s3.wf
  obtain ⟨s123, d123⟩ := s12.new2 s3 w
  have k2' := (outsStable _ _ _).keep w2 s3 (by simp) (by simp) k2
  obtain ⟨A2', e2, -⟩ := k2'.each
  obtain ⟨outs, vo, h4, B2, eo', po, ⟨ro, lo⟩, s4, go⟩ := eachH_ok OutAt.stable (f := fun o => ({} : HTxOut).assign o) (g := fun i => ({} : TxOut).assign i)
    (Q := fun i => i.scriptPubkey.Fits) (R := fun i => i.scriptPubkey.status = .done) (S := fun i => i.Small) (fun w a q => HTxOut.fresh_at w a q) w3 e2 hf.2
  obtain ⟨s1234, d1234⟩ := s123.new2 s4 w
  have pi' := (EachAt.stable InAt.stable _ _).keep w3 s4 (by simp) (by simp) pi
  rw [Finset.disjoint_union_left, Finset.disjoint_union_left] at d1234
  rw [Finset.disjoint_union_left] at d123
  have hp : h4.blocks p ≠ none := s1234.live p (by simp)
  have hq : h4.blocks q ≠ none := s1234.live q (by simp)
  obtain ⟨C1, E1, x1, y1, z1, c1⟩ := ArrAt.make pi' hp (by simpa using d123.1)
  obtain ⟨C2, E2, x2, y2, z2, c2⟩ := ArrAt.make po hq (by simpa using d1234.1.2)
  have dd : Disjoint ({p} ∪ B1) ({q} ∪ B2) := by
    rw [Finset.disjoint_union_left, Finset.disjoint_union_right, Finset.disjoint_union_right]
    exact ⟨⟨d12, d1234.1.1⟩, d123.2.symm, d1234.2⟩
  have eset : {p} ∪ {q} ∪ B1 ∪ B2 = C1 ∪ C2 ∪ (E1 ∪ E2) := by
    rw [Finset.union_assoc ({p} ∪ {q}), Finset.union_union_union_comm, y1, y2, Finset.union_union_union_comm]
  rw [y1, y2, Finset.disjoint_union_left, Finset.disjoint_union_right, Finset.disjoint_union_right] at dd
  obtain ⟨⟨dd1, dd2⟩, dd3, dd4⟩ := dd
  have hli : (vi = []) = (v.txIns = []) := by
    rw [eu, ← List.length_eq_zero_iff, ← List.length_eq_zero_iff, List.length_map, li]
  have hlo : (vo = []) = (v.txOuts = []) := by
    rw [← List.length_eq_zero_iff, ← List.length_eq_zero_iff, lo]
  refine ⟨⟨o.status, o.bytesParsed, o.segwitFlag, o.version, p, ins, q, outs, o.locktime⟩, { v with txIns := vi.map Prod.fst, txOuts := vo }, vi, h4, C1 ∪ C2,
    E1 ∪ E2, ?_, ⟨?_, rfl, C1, C2, x1, x2, dd1, rfl⟩, ⟨⟨fst_mem (Q := fun i => i.scriptSig.status = .done) (fun i hi => (ri i hi).1), ro⟩, fun i hi => (ri i hi).2⟩, ?_, ?_, ?_, ?_⟩
  · unfold take
    rw [n1]
    dsimp only
    rw [n2]
    dsimp only
    rw [k1.access, C.bind_ok, ei, C.bind_ok]
    dsimp only
    rw [k2'.access, C.bind_ok, eo', C.bind_ok]
    rfl
  · rw [eo]
  · rw [← eset]; exact s1234
  · rw [Finset.disjoint_union_left, Finset.disjoint_union_right, Finset.disjoint_union_right]
    exact ⟨⟨z1, dd2⟩, dd3.symm, z2⟩
  · rw [Finset.card_union_of_disjoint dd4, c1, c2]
    unfold Tx.emptyArrays
    simp only [hli, hlo]
  · intro g sm
    have e1 := gi (s12.generous g) (mem_fst (eu ▸ sm.1))
    have e2 := go (s123.generous g) sm.2
    refine ⟨?_, e1⟩
    rw [e1, e2]
    unfold Tx.copy
    rw [eu, List.map_map, List.map_map]
    rfl

/-- Transaction.cpp:212-229. -/
theorem copy_at {h : Heap} (w : h.Wf) {o : HTx} {v : Tx} {u : List (TxIn × Bool)} {D : Finset Nat} (a : TxAt o v u h D) (hf : v.AllFits) :
    ∃ o' v' u' h' B E, o.copy h = .ok (o', h') ∧ TxAt o' v' u' h' B ∧ (v'.AllDone ∧ ∀ i ∈ u', ¬ HTxIn.stale i) ∧ Step h h' ∅ (B ∪ E) ∧ Disjoint B E ∧
      E.card = v.emptyArrays ∧ (h.Generous → v.Small → v' = v.copy ∧ u' = u.map fun i => (({} : TxIn).assign i.1).since false) :=
  take_at w {} a hf

/-- `if(inputsNumber > 0) delete [] txIns; if(outputsNumber > 0) delete [] txOuts;` -/
theorem drop_at {h : Heap} (w : h.Wf) {o : HTx} {v : Tx} {u : List (TxIn × Bool)} {A : Finset Nat} (a : TxAt o v u h A) (hs : ∀ i ∈ u, ¬ HTxIn.stale i) :
    ∃ h1 h2, deleteSome HTxIn.destroy o.inPtr o.txIns h = .ok h1 ∧ deleteSome HTxOut.destroy o.outPtr o.txOuts h1 = .ok h2 ∧ Step h h2 A ∅ := by
  obtain ⟨-, -, A1, A2, h1, h2, hd, rfl⟩ := a
  obtain ⟨hp1, e1, s1⟩ := deleteArray_ok InAt.stable (d := HTxIn.destroy) (Q := fun v => ¬ HTxIn.stale v) (fun w a q => HTxIn.destroy_at w a q) w h1 hs
  have k2 := (outsStable _ _ _).keep w s1 ((insStable _ _ _).live h1) hd.symm h2
  obtain ⟨hp2, e2, s2⟩ := deleteArray_ok OutAt.stable (d := HTxOut.destroy) (Q := fun _ => True) (fun w a _ => HTxOut.destroy_at w a) s1.wf k2 (fun _ _ => trivial)
  exact ⟨hp1, hp2, e1, e2, s1.gone2 s2 w ((outsStable _ _ _).live h2) hd⟩

theorem drop_at_ub {h : Heap} (w : h.Wf) {o : HTx} {v : Tx} {u : List (TxIn × Bool)} {A : Finset Nat} (a : TxAt o v u h A) (hs : ∃ i ∈ u, HTxIn.stale i) :
    deleteSome HTxIn.destroy o.inPtr o.txIns h = .ub := by
  obtain ⟨-, -, A1, A2, h1, h2, hd, rfl⟩ := a
  exact deleteArray_ub InAt.stable (d := HTxIn.destroy) (Q := fun v => ¬ HTxIn.stale v) (fun w a q => HTxIn.destroy_at w a q)
    (fun _ a q => HTxIn.destroy_at_ub a (not_not.1 q)) w h1 (by simpa using hs)

/-- Transaction.cpp:258-269. -/
theorem clear_at {h : Heap} (w : h.Wf) {o : HTx} {v : Tx} {u : List (TxIn × Bool)} {A : Finset Nat} (a : TxAt o v u h A) (hs : ∀ i ∈ u, ¬ HTxIn.stale i) :
    ∃ o' h', o.clear h = .ok (o', h') ∧ TxAt o' { v with txIns := [], txOuts := [] } [] h' ∅ ∧ Step h h' A ∅ := by
  obtain ⟨h1, h2, e1, e2, s⟩ := drop_at w a hs
  have eo := a.1
  have c1 : o.clear h = .ok (⟨v.status, v.bytesParsed, v.segwitFlag, v.version, if o.txIns.length > 0 then 0 else o.inPtr, [],
      if o.txOuts.length > 0 then 0 else o.outPtr, [], v.locktime⟩, h2) := by
    unfold deleteSome at e1 e2
    unfold clear
    by_cases hi : o.txIns.length > 0
    · rw [if_pos hi] at e1 ⊢
      rw [e1, C.bind_ok, C.pure_eq, C.bind_ok]
      dsimp only
      by_cases ho : o.txOuts.length > 0
      · rw [if_pos ho] at e2 ⊢
        rw [e2, C.bind_ok, if_pos ho, if_pos hi, eo]
        rfl
      · rw [if_neg ho] at e2 ⊢
        have : o.txOuts = [] := List.length_eq_zero_iff.1 (by omega)
        rw [if_neg ho, if_pos hi, eo, this]
        injection e2 with e2
        rw [← e2]
        rfl
    · rw [if_neg hi] at e1 ⊢
      injection e1 with e1
      subst e1
      have hi' : o.txIns = [] := List.length_eq_zero_iff.1 (by omega)
      rw [C.pure_eq, C.bind_ok]
      dsimp only
      by_cases ho : o.txOuts.length > 0
      · rw [if_pos ho] at e2 ⊢
        rw [e2, C.bind_ok, if_pos ho, if_neg hi, eo, hi']
        rfl
      · rw [if_neg ho] at e2 ⊢
        have : o.txOuts = [] := List.length_eq_zero_iff.1 (by omega)
        rw [if_neg ho, if_neg hi, eo, this, hi']
        injection e2 with e2
        rw [← e2]
        rfl
  exact ⟨_, h2, c1, ⟨rfl, rfl, ∅, ∅, ArrAt.nil _ _, ArrAt.nil _ _, by simp, by simp⟩, s⟩

theorem destroy_at {h : Heap} (w : h.Wf) {o : HTx} {v : Tx} {u : List (TxIn × Bool)} {A : Finset Nat} (a : TxAt o v u h A) (hs : ∀ i ∈ u, ¬ HTxIn.stale i) :
    ∃ h', o.destroy h = .ok h' ∧ Step h h' A ∅ := by
  obtain ⟨o', h', e, -, s⟩ := clear_at w a hs
  refine ⟨h', ?_, s⟩
  unfold destroy
  rw [e, C.bind_ok]
  rfl

theorem clear_at_ub {h : Heap} (w : h.Wf) {o : HTx} {v : Tx} {u : List (TxIn × Bool)} {A : Finset Nat} (a : TxAt o v u h A) (hs : ∃ i ∈ u, HTxIn.stale i) :
    o.clear h = .ub := by
  have e := drop_at_ub w a hs
  unfold deleteSome at e
  unfold clear
  by_cases hi : o.txIns.length > 0
  · rw [if_pos hi] at e ⊢
    rw [e]
    rfl
  · rw [if_neg hi] at e
    cases e

theorem destroy_at_ub {h : Heap} (w : h.Wf) {o : HTx} {v : Tx} {u : List (TxIn × Bool)} {A : Finset Nat} (a : TxAt o v u h A) (hs : ∃ i ∈ u, HTxIn.stale i) :
    o.destroy h = .ub := by
  unfold destroy
  rw [clear_at_ub w a hs]
  rfl

/-- Transaction.cpp:230-254. -/
theorem assign_at {h : Heap} (w : h.Wf) {o oo : HTx} {v vo : Tx} {u uo : List (TxIn × Bool)} {A D : Finset Nat} (a : TxAt o v u h A) (ao : TxAt oo vo uo h D)
    (hs : ∀ i ∈ u, ¬ HTxIn.stale i) (hf : vo.AllFits) (d : Disjoint D A) :
    ∃ o' v' u' h' B E, o.assign oo h = .ok (o', h') ∧ TxAt o' v' u' h' B ∧ (v'.AllDone ∧ ∀ i ∈ u', ¬ HTxIn.stale i) ∧ Step h h' A (B ∪ E) ∧ Disjoint B E ∧
      E.card = vo.emptyArrays ∧ (h.Generous → vo.Small → v' = vo.copy ∧ u' = uo.map fun i => (({} : TxIn).assign i.1).since false) := by
  obtain ⟨h1, h2, e1, e2, s⟩ := drop_at w a hs
  have ko := (TxAt.stable _ _ _).keep w s ((TxAt.stable _ _ _).live a) d ao
  obtain ⟨o', v', u', h', B, E, e, at', nd, s', de, ce, g⟩ := take_at s.wf o ko hf
  refine ⟨o', v', u', h', B, E, ?_, at', nd, ?_, de, ce, fun gg sm => g (s.generous gg) sm⟩
  · unfold assign
    rw [e1, C.bind_ok, e2, C.bind_ok]
    exact e
  · have := (s.par s' w (by simp) (by simp)).1
    simpa using this

/-- Transaction.cpp:601-613. -/
theorem addInput_at {h : Heap} (w : h.Wf) {o : HTx} {v : Tx} {u : List (TxIn × Bool)} {A : Finset Nat} (a : TxAt o v u h A) {i : HTxIn} {vi : TxIn × Bool}
    {D : Finset Nat} (ai : InAt i vi h D) (hs : ∀ i ∈ u, ¬ HTxIn.stale i) (hf : ∀ i ∈ v.txIns, i.scriptSig.Fits) (hfi : vi.1.scriptSig.Fits) :
    ∃ o' v' u' h' B, o.addInput i h = .ok (o', UInt8.ofNat (u.length + 1), h') ∧ TxAt o' v' u' h' B ∧
      ((∀ i ∈ u', i.1.scriptSig.status = .done ∧ ¬ HTxIn.stale i) ∧ v'.txOuts = v.txOuts ∧ u'.length = u.length + 1) ∧ Step h h' A B ∧
      (h.Generous → v.Small → vi.1.Small → v' = (v.addInput vi.1).1 ∧ u' = (v.addInput vi.1).1.txIns.map (TxIn.since · false)) := by
  obtain ⟨eo, eu, A1, A2, h1, h2, hd, rfl⟩ := a
  obtain ⟨arg, va, hp0, B0, e0, a0, ⟨st0, ns0⟩, s0, g0⟩ := HTxIn.copy_at w ai hfi
  have w0 := s0.wf
  have k1 := (insStable _ _ _).keep w s0 (by simp) (by simp) h1
  obtain ⟨p, hp1, n1, s1, b1⟩ := new_get w0
  have w1 := s1.wf
  have k1' := (insStable _ _ _).keep w0 s1 (by simp) (by simp) k1
  obtain ⟨A1', e1, -⟩ := k1'.each
  obtain ⟨ins, vs, h3, B1, ei, pi, ⟨ri, li⟩, s3, gi⟩ := eachH_ok InAt.stable (f := fun o => ({} : HTxIn).assign o) (g := fun i => (({} : TxIn).assign i.1).since false)
    (Q := fun i => i.1.scriptSig.Fits) (R := fun i => i.1.scriptSig.status = .done ∧ ¬ HTxIn.stale i) (S := fun i => i.1.Small)
    (fun w a q => HTxIn.fresh_at w a q) w1 e1 (mem_fst (eu ▸ hf))
  have w3 := s3.wf
  obtain ⟨s13, d13⟩ := s1.new2 s3 w0
  have a0' := (InAt.stable _ _).keep w0 s13 (by simp) (by simp) a0
  have fit : va.1.scriptSig.Fits := by
    obtain ⟨-, B1', -, sa, -⟩ := a0
    exact sa.2.2.1.fits st0
  obtain ⟨last, vl, h4, B2, el, pl, rl, s4, gl⟩ := HTxIn.fresh_at w3 a0' fit
  obtain ⟨s134, d134⟩ := s13.new2 s4 w0
  have k1'' := (insStable _ _ _).keep w0 s134 (by simp) (by simp) k1
  obtain ⟨h5, e5, s5⟩ := deleteArray_ok InAt.stable (d := HTxIn.destroy) (Q := fun v => ¬ HTxIn.stale v) (fun w a q => HTxIn.destroy_at w a q) s4.wf k1'' hs
  have l0 : ∀ q ∈ A1, h.blocks q ≠ none := (insStable _ _ _).live h1
  have l1 : ∀ q ∈ A1, hp0.blocks q ≠ none := (insStable _ _ _).live k1
  obtain ⟨s6, d6⟩ := Step.replace w0 s134 s5 l1
  have dA0 : Disjoint A1 B0 := s0.apart w l0 (by simp)
  have a0'' := (InAt.stable _ _).keep w0 s6 l1 dA0.symm a0
  obtain ⟨h7, e7, s7⟩ := HTxIn.destroy_at s6.wf a0'' ns0
  obtain ⟨sAll, dB⟩ := Step.during w s0 s6 s7 l0
  -- the new array, from where it is complete to the end
  have pi4 := (EachAt.stable InAt.stable _ _).keep w3 s4 (by simp) (by simp) pi
  rw [Finset.disjoint_union_left] at d134
  have arr4 := pi4.append (EachAt.single pl) d134.2
  have s57 : Step h4 h7 (A1 ∪ B0) ∅ := s5.gone2 s7 s4.wf ((InAt.stable _ _).live ((InAt.stable _ _).keep w0 s134 (by simp) (by simp) a0)) dA0
  have live57 : ∀ q ∈ A1 ∪ B0, h4.blocks q ≠ none := by
    intro q hq
    rcases Finset.mem_union.1 hq with hq | hq
    · exact (insStable _ _ _).live k1'' q hq
    · exact s134.alive w0 s0.live (by simp) q hq
  have dNew : Disjoint (B1 ∪ B2) (A1 ∪ B0) := by
    rw [Finset.disjoint_union_right]
    exact ⟨(Finset.disjoint_of_subset_right (by intro q; simp only [Finset.mem_union]; rintro (h | h) <;> simp [h]) d6).symm,
      (Finset.disjoint_of_subset_right (by intro q; simp only [Finset.mem_union]; rintro (h | h) <;> simp [h]) dB).symm⟩
  have arr7 := (EachAt.stable InAt.stable _ _).keep s4.wf s57 live57 dNew arr4
  have hp : h7.blocks p ≠ none := sAll.live p (by simp)
  have hpn : p ∉ B1 ∪ B2 := by
    rw [Finset.mem_union, not_or]
    exact ⟨by simpa using d13, by simpa using d134.1⟩
  obtain ⟨C1, E1, x1, y1, -, c1⟩ := ArrAt.make arr7 hp hpn
  have hE : E1 = ∅ := by
    rw [← Finset.card_eq_zero, c1, if_neg (by simp)]
  rw [hE, Finset.union_empty] at y1
  rw [← y1] at x1
  have outs7 := (outsStable _ _ _).keep w sAll l0 hd.symm h2
  have lA2 : ∀ q ∈ A2, h.blocks q ≠ none := (outsStable _ _ _).live h2
  have dfin : Disjoint ({p} ∪ (B1 ∪ B2)) A2 := by
    have := sAll.apart w lA2 hd.symm
    rw [Finset.union_assoc] at this
    exact this.symm
  have sfin := sAll.frame w A2 (fun q hq hc => Finset.disjoint_left.1 hd hc hq) lA2
  rw [Finset.union_assoc {p}] at sfin
  refine ⟨⟨o.status, o.bytesParsed, o.segwitFlag, o.version, p, ins ++ [last], o.outPtr, o.txOuts, o.locktime⟩, { v with txIns := (vs ++ [vl]).map Prod.fst },
    vs ++ [vl], h7, {p} ∪ (B1 ∪ B2) ∪ A2, ?_, ⟨?_, rfl, _, _, x1, outs7, dfin, rfl⟩, ⟨?_, rfl, by simp [li]⟩, sfin, ?_⟩
  · unfold addInput
    rw [e0, C.bind_ok]
    dsimp only
    rw [n1]
    dsimp only
    rw [k1'.access, C.bind_ok, ei, C.bind_ok]
    dsimp only
    rw [el, C.bind_ok]
    dsimp only
    rw [e5, C.bind_ok, e7, C.bind_ok]
    rw [show (ins ++ [last]).length = u.length + 1 by simp [pi.length, li]]
    rfl
  · rw [eo]
  · intro x hx
    rcases List.mem_append.1 hx with hx | hx
    · exact ri x hx
    · rw [List.mem_singleton.1 hx]; exact rl
  · intro g sm smi
    have g0' := g0 g smi
    have gv := gi ((s0.generous g |> s1.generous)) (mem_fst (eu ▸ sm.1))
    have sva : va.1.Small := by
      rw [g0']
      refine ⟨?_, ?_⟩
      · have := smi.1
        simp only [TxIn.since, TxIn.copy, Script.copy]
        split
        · exact this
        · exact Nat.two_pow_pos 63
      · have := smi.2
        simp only [TxIn.since, TxIn.copy, Witness.copy]
        exact this
    have gl' := gl (s13.generous (s0.generous g)) sva
    have e1 : vs ++ [vl] = (v.txIns ++ [vi.1.copy]).map fun i => (({} : TxIn).assign i).since false := by
      rw [gv, gl', g0', List.map_append, eu, List.map_map]
      rfl
    refine ⟨?_, ?_⟩
    · rw [e1]
      unfold Tx.addInput
      dsimp only
      rw [List.map_map]
      rfl
    · rw [e1]
      unfold Tx.addInput
      dsimp only
      rw [List.map_map]
      rfl

/-- Adding an input deletes the array of inputs before. -/
theorem addInput_at_ub {h : Heap} (w : h.Wf) {o : HTx} {v : Tx} {u : List (TxIn × Bool)} {A : Finset Nat} (a : TxAt o v u h A) {i : HTxIn} {vi : TxIn × Bool}
    {D : Finset Nat} (ai : InAt i vi h D) (hs : ∃ i ∈ u, HTxIn.stale i) (hf : ∀ i ∈ v.txIns, i.scriptSig.Fits) (hfi : vi.1.scriptSig.Fits) :
    o.addInput i h = .ub := by
  obtain ⟨eo, eu, A1, A2, h1, h2, hd, rfl⟩ := a
  obtain ⟨arg, va, hp0, B0, e0, a0, ⟨st0, ns0⟩, s0, g0⟩ := HTxIn.copy_at w ai hfi
  have w0 := s0.wf
  have k1 := (insStable _ _ _).keep w s0 (by simp) (by simp) h1
  obtain ⟨p, hp1, n1, s1, b1⟩ := new_get w0
  have w1 := s1.wf
  have k1' := (insStable _ _ _).keep w0 s1 (by simp) (by simp) k1
  obtain ⟨A1', e1, -⟩ := k1'.each
  obtain ⟨ins, vs, h3, B1, ei, pi, ⟨ri, li⟩, s3, gi⟩ := eachH_ok InAt.stable (f := fun o => ({} : HTxIn).assign o) (g := fun i => (({} : TxIn).assign i.1).since false)
    (Q := fun i => i.1.scriptSig.Fits) (R := fun i => i.1.scriptSig.status = .done ∧ ¬ HTxIn.stale i) (S := fun i => i.1.Small)
    (fun w a q => HTxIn.fresh_at w a q) w1 e1 (mem_fst (eu ▸ hf))
  have w3 := s3.wf
  obtain ⟨s13, d13⟩ := s1.new2 s3 w0
  have a0' := (InAt.stable _ _).keep w0 s13 (by simp) (by simp) a0
  have fit : va.1.scriptSig.Fits := by
    obtain ⟨-, B1', -, sa, -⟩ := a0
    exact sa.2.2.1.fits st0
  obtain ⟨last, vl, h4, B2, el, pl, rl, s4, gl⟩ := HTxIn.fresh_at w3 a0' fit
  obtain ⟨s134, d134⟩ := s13.new2 s4 w0
  have k1'' := (insStable _ _ _).keep w0 s134 (by simp) (by simp) k1
  have e5 := deleteArray_ub InAt.stable (d := HTxIn.destroy) (Q := fun v => ¬ HTxIn.stale v) (fun w a q => HTxIn.destroy_at w a q)
    (fun _ a q => HTxIn.destroy_at_ub a (not_not.1 q)) s4.wf k1'' (by simpa using hs)
  unfold addInput
  rw [e0, C.bind_ok]
  dsimp only
  rw [n1]
  dsimp only
  rw [k1'.access, C.bind_ok, ei, C.bind_ok]
  dsimp only
  rw [el, C.bind_ok]
  dsimp only
  rw [e5]
  rfl

/-- Assignment deletes the array of inputs before. -/
theorem assign_at_ub {h : Heap} (w : h.Wf) {o : HTx} {v : Tx} {u : List (TxIn × Bool)} {A : Finset Nat} (a : TxAt o v u h A) (oo : HTx)
    (hs : ∃ i ∈ u, HTxIn.stale i) : o.assign oo h = .ub := by
  unfold assign
  rw [drop_at_ub w a hs]
  rfl

/-- Transaction.cpp:614-626. -/
theorem addOutput_at {h : Heap} (w : h.Wf) {o : HTx} {v : Tx} {u : List (TxIn × Bool)} {A : Finset Nat} (a : TxAt o v u h A) {i : HTxOut} {vi : TxOut}
    {D : Finset Nat} (ai : OutAt i vi h D) (hf : ∀ i ∈ v.txOuts, i.scriptPubkey.Fits) (hfi : vi.scriptPubkey.Fits) :
    ∃ o' v' h' B, o.addOutput i h = .ok (o', UInt8.ofNat (v.txOuts.length + 1), h') ∧ TxAt o' v' u h' B ∧
      ((∀ i ∈ v'.txOuts, i.scriptPubkey.status = .done) ∧ v'.txOuts.length = v.txOuts.length + 1) ∧ Step h h' A B ∧
      (h.Generous → v.Small → vi.Small → v' = (v.addOutput vi).1) := by
  obtain ⟨eo, eu, A2, A1, h2, h1, hd', rfl⟩ := a
  have hd := hd'.symm
  obtain ⟨arg, va, hp0, B0, e0, a0, st0, s0, g0⟩ := HTxOut.copy_at w ai hfi
  have w0 := s0.wf
  have k1 := (outsStable _ _ _).keep w s0 (by simp) (by simp) h1
  obtain ⟨p, hp1, n1, s1, b1⟩ := new_get w0
  have w1 := s1.wf
  have k1' := (outsStable _ _ _).keep w0 s1 (by simp) (by simp) k1
  obtain ⟨A1', e1, -⟩ := k1'.each
  obtain ⟨ins, vs, h3, B1, ei, pi, ⟨ri, li⟩, s3, gi⟩ := eachH_ok OutAt.stable (f := fun o => ({} : HTxOut).assign o) (g := fun i => ({} : TxOut).assign i)
    (Q := fun i => i.scriptPubkey.Fits) (R := fun i => i.scriptPubkey.status = .done) (S := fun i => i.Small)
    (fun w a q => HTxOut.fresh_at w a q) w1 e1 hf
  have w3 := s3.wf
  obtain ⟨s13, d13⟩ := s1.new2 s3 w0
  have a0' := (OutAt.stable _ _).keep w0 s13 (by simp) (by simp) a0
  have fit : va.scriptPubkey.Fits := a0.2.2.2.1.fits st0
  obtain ⟨last, vl, h4, B2, el, pl, rl, s4, gl⟩ := HTxOut.fresh_at w3 a0' fit
  obtain ⟨s134, d134⟩ := s13.new2 s4 w0
  have k1'' := (outsStable _ _ _).keep w0 s134 (by simp) (by simp) k1
  obtain ⟨h5, e5, s5⟩ := deleteArray_ok OutAt.stable (d := HTxOut.destroy) (Q := fun _ => True) (fun w a _ => HTxOut.destroy_at w a) s4.wf k1'' (fun _ _ => trivial)
  have l0 : ∀ q ∈ A1, h.blocks q ≠ none := (outsStable _ _ _).live h1
  have l1 : ∀ q ∈ A1, hp0.blocks q ≠ none := (outsStable _ _ _).live k1
  obtain ⟨s6, d6⟩ := Step.replace w0 s134 s5 l1
  have dA0 : Disjoint A1 B0 := s0.apart w l0 (by simp)
  have a0'' := (OutAt.stable _ _).keep w0 s6 l1 dA0.symm a0
  obtain ⟨h7, e7, s7⟩ := HTxOut.destroy_at s6.wf a0''
  obtain ⟨sAll, dB⟩ := Step.during w s0 s6 s7 l0
  -- the new array, from where it is complete to the end
  have pi4 := (EachAt.stable OutAt.stable _ _).keep w3 s4 (by simp) (by simp) pi
  rw [Finset.disjoint_union_left] at d134
  have arr4 := pi4.append (EachAt.single pl) d134.2
  have s57 : Step h4 h7 (A1 ∪ B0) ∅ := s5.gone2 s7 s4.wf ((OutAt.stable _ _).live ((OutAt.stable _ _).keep w0 s134 (by simp) (by simp) a0)) dA0
  have live57 : ∀ q ∈ A1 ∪ B0, h4.blocks q ≠ none := by
    intro q hq
    rcases Finset.mem_union.1 hq with hq | hq
    · exact (outsStable _ _ _).live k1'' q hq
    · exact s134.alive w0 s0.live (by simp) q hq
  have dNew : Disjoint (B1 ∪ B2) (A1 ∪ B0) := by
    rw [Finset.disjoint_union_right]
    exact ⟨(Finset.disjoint_of_subset_right (by intro q; simp only [Finset.mem_union]; rintro (h | h) <;> simp [h]) d6).symm,
      (Finset.disjoint_of_subset_right (by intro q; simp only [Finset.mem_union]; rintro (h | h) <;> simp [h]) dB).symm⟩
  have arr7 := (EachAt.stable OutAt.stable _ _).keep s4.wf s57 live57 dNew arr4
  have hp : h7.blocks p ≠ none := sAll.live p (by simp)
  have hpn : p ∉ B1 ∪ B2 := by
    rw [Finset.mem_union, not_or]
    exact ⟨by simpa using d13, by simpa using d134.1⟩
  obtain ⟨C1, E1, x1, y1, -, c1⟩ := ArrAt.make arr7 hp hpn
  have hE : E1 = ∅ := by
    rw [← Finset.card_eq_zero, c1, if_neg (by simp)]
  rw [hE, Finset.union_empty] at y1
  rw [← y1] at x1
  have outs7 := (insStable _ _ _).keep w sAll l0 hd.symm h2
  have lA2 : ∀ q ∈ A2, h.blocks q ≠ none := (insStable _ _ _).live h2
  have dfin : Disjoint A2 ({p} ∪ (B1 ∪ B2)) := by
    have := sAll.apart w lA2 hd.symm
    rw [Finset.union_assoc] at this
    exact this
  have sfin := sAll.frame w A2 (fun q hq hc => Finset.disjoint_left.1 hd hc hq) lA2
  rw [Finset.union_assoc {p}, Finset.union_comm A1, Finset.union_comm _ A2] at sfin
  refine ⟨⟨o.status, o.bytesParsed, o.segwitFlag, o.version, o.inPtr, o.txIns, p, ins ++ [last], o.locktime⟩, { v with txOuts := vs ++ [vl] },
    h7, A2 ∪ ({p} ∪ (B1 ∪ B2)), ?_, ⟨?_, eu, _, _, outs7, x1, dfin, rfl⟩, ⟨?_, by simp [li]⟩, sfin, ?_⟩
  · unfold addOutput
    rw [e0, C.bind_ok]
    dsimp only
    rw [n1]
    dsimp only
    rw [k1'.access, C.bind_ok, ei, C.bind_ok]
    dsimp only
    rw [el, C.bind_ok]
    dsimp only
    rw [e5, C.bind_ok, e7, C.bind_ok]
    rw [show (ins ++ [last]).length = v.txOuts.length + 1 by simp [pi.length, li]]
    rfl
  · rw [eo]
  · intro x hx
    rcases List.mem_append.1 hx with hx | hx
    · exact ri x hx
    · rw [List.mem_singleton.1 hx]; exact rl
  · intro g sm smi
    have g0' := g0 g smi
    have gv := gi ((s0.generous g |> s1.generous)) sm.2
    have sva : va.Small := by
      rw [g0']
      have := smi
      unfold TxOut.Small at this ⊢
      simp only [TxOut.copy, Script.copy]
      split
      · exact this
      · exact Nat.two_pow_pos 63
    have gl' := gl (s13.generous (s0.generous g)) sva
    rw [gv, gl', g0']
    unfold Tx.addOutput
    dsimp only
    rw [List.map_append]
    rfl

/-- A change of one of the inputs. -/
theorem update_at {h : Heap} (w : h.Wf) {o : HTx} {v : Tx} {u : List (TxIn × Bool)} {A : Finset Nat} (a : TxAt o v u h A) {i : Nat} {t : HTxIn}
    (hi : o.txIns[i]? = some t) :
    h.access o.inPtr o.txIns.length = .ok () ∧ ∃ vt A1, u[i]? = some vt ∧ InAt t vt h A1 ∧ A1 ⊆ A ∧
      ∀ {h' : Heap} {t' : HTxIn} {vt' : TxIn × Bool} {B : Finset Nat}, Step h h' A1 B → InAt t' vt' h' B →
        ∃ B', TxAt { o with txIns := o.txIns.set i t' } { v with txIns := v.txIns.set i vt'.1 } (u.set i vt') h' B' ∧ Step h h' A B' := by
  obtain ⟨eo, eu, A1, A2, h1, h2, hd, rfl⟩ := a
  refine ⟨h1.access, ?_⟩
  rcases h1.cases with ⟨e, -, -⟩ | ⟨ho, hv, A', e, hp, hn, rfl⟩
  · rw [e] at hi; simp at hi
  · obtain ⟨vt, -, -, hvt, -⟩ := e.get hi
    obtain ⟨C1, C2, c1, c2, rfl, c3⟩ := e.update InAt.stable w hi hvt
    refine ⟨vt, C1, hvt, c1, ?_, fun {h' t' vt' B} s p => ?_⟩
    · intro q hq; simp [hq]
    rw [Finset.disjoint_insert_left, Finset.disjoint_union_left] at hd
    rw [Finset.mem_union, not_or] at hn
    have lA2 := (outsStable _ _ _).live h2
    have lC2 : ∀ q ∈ insert o.inPtr C2, h.blocks q ≠ none := by
      intro q hq
      rcases Finset.mem_insert.1 hq with rfl | hq
      · exact hp
      · exact (EachAt.stable InAt.stable _ _).live e q (by simp [hq])
    have dC : Disjoint (insert o.inPtr C2) C1 := by
      rw [Finset.disjoint_insert_left]
      exact ⟨hn.1, c2.symm⟩
    have k2 := (outsStable _ _ _).keep w s ((InAt.stable _ _).live c1) hd.2.1.symm h2
    have hrest : ∀ q ∈ insert o.inPtr C2 ∪ A2, h.blocks q ≠ none := by
      intro q hq
      rcases Finset.mem_union.1 hq with hq | hq
      · exact lC2 q hq
      · exact lA2 q hq
    have drest : Disjoint (insert o.inPtr C2 ∪ A2) C1 := by
      rw [Finset.disjoint_union_left]
      exact ⟨dC, hd.2.1.symm⟩
    have f := s.frame w (insert o.inPtr C2 ∪ A2) (fun q hq hc => Finset.disjoint_left.1 drest hq hc) hrest
    have dB := s.apart w hrest drest
    rw [Finset.disjoint_union_left, Finset.disjoint_insert_left] at dB
    have ep := s.alive w lC2 dC o.inPtr (by simp)
    have es : ∀ X : Finset Nat, X ∪ (insert o.inPtr C2 ∪ A2) = insert o.inPtr (X ∪ C2) ∪ A2 := by
      intro X
      rw [Finset.insert_eq, Finset.insert_eq, ← Finset.union_assoc, ← Finset.union_assoc, ← Finset.union_assoc, Finset.union_comm X]
    rw [es, es] at f
    refine ⟨insert o.inPtr (B ∪ C2) ∪ A2, ⟨?_, ?_, insert o.inPtr (B ∪ C2), A2, ⟨B ∪ C2, c3 s p, fun c => ?_, fun _ => ⟨ep, ?_, rfl⟩⟩, k2, ?_, rfl⟩, f⟩
    · rw [eo]
    · simp only
      rw [eu, List.map_set]
    · exact absurd (by simpa using c) ho
    · rw [Finset.mem_union, not_or]
      exact ⟨dB.1.1, hn.2⟩
    · rw [Finset.disjoint_insert_left, Finset.disjoint_union_left]
      exact ⟨hd.1, dB.2.symm, hd.2.2⟩

end HTx
end UB
