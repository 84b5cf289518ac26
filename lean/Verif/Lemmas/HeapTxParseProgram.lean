import Verif.Lemmas.HeapTxProgram
import Verif.Lemmas.HeapTxParse2
import Verif.Lemmas.TxWhole
import Verif.Lemmas.WitRoom
import Verif.Spec.HeapTxParseProgram

/-! Programs that also parse on the heap against the values of their variables. -/

namespace UB
open Heap Spec

/-- What holds of every variable whatever has been parsed into it: complete variables have complete scripts, incomplete transactions can
be continued. -/
def Spec.TVal.Sound : TVal → Prop
  | .txIn v _ => v.status = .done → v.scriptSig.status = .done
  | .txOut v => v.status = .done → v.scriptPubkey.status = .done
  | .tx v _ => v.Closed ∧ v.Steady ∧ (v.status = .done ∨ v.Roomy)

theorem Spec.TVal.Sound.done {v : TVal} (h : v.Sound) (hs : v.status = .done) : v.Done := by
  cases v with
  | txIn v e => exact h hs
  | txOut v => exact h hs
  | tx v e => exact h.1.2 hs

theorem Spec.TVal.Sound.of_done {v : TVal} (h : v.Done) (hs : v.status = .done) : v.Sound := by
  cases v with
  | txIn v e => exact fun _ => h
  | txOut v => exact fun _ => h
  | tx v e =>
    refine ⟨⟨⟨fun i hi _ => h.1 i hi, fun i hi _ => h.2 i hi⟩, fun _ => h⟩, fun c => ?_, Or.inl hs⟩
    have : v.status = .done := hs
    rw [this] at c
    cases c

theorem Spec.TVal.Sound.parse {v : TVal} (h : v.Sound) (s : PStream) : (v.parse s).Sound := by
  cases v with
  | txIn v e => exact TxIn.fromStream_done v s h
  | txOut v => exact TxOut.fromStream_done v s h
  | tx v e => exact ⟨Tx.fromStream_closed v s h.1, Tx.fromStream_steady v s h.2.1, Or.inr (Tx.fromStream_roomy v s h.2.2)⟩

/-- The state of a program that parses. -/
structure PInv (W : TWorld) (vs : TVals) (ow : Nat → Finset Nat) (L : Finset Nat) : Prop extends TMem W vs ow L where
  sound : ∀ x v, vs x = some v → v.Sound

theorem PInv.init (denies : Nat → Nat → Bool) : PInv (TWorld.init denies) (fun _ => none) (fun _ => ∅) ∅ where
  toTMem := (TInv.init denies).toTMem
  sound := fun _ _ h => by cases h

theorem actOn_status (v : TxIn) (op : InOp) : (actOn v op).status = v.status := by
  cases op with
  | push d =>
    simp only [actOn]
    split <;> rfl
  | clearWitness => rfl
  | setScript d => rfl

/-- The status of a variable whose value a statement changes. -/
theorem TVals.step_puts {vs : TVals} {op : TOp} (rd : PReady vs op) : vs.step op = vs ∨ ∃ x w, vs.step op = vs.put x w ∧ ∀ u, w = some u → u.status = .done := by
  have key : ∀ x (w : TVal), w.status = .done → vs.put x (some w) = vs ∨ ∃ y u, vs.put x (some w) = vs.put y u ∧ ∀ t, u = some t → t.status = .done :=
    fun x w hw => Or.inr ⟨x, _, rfl, fun t ht => by injection ht with ht; rw [← ht]; exact hw⟩
  cases op with
  | newIn x prevId idx data seq =>
    simp only [TVals.step]
    split
    · exact key _ _ rfl
    · exact Or.inl rfl
  | newOut x amount data =>
    simp only [TVals.step]
    split
    · exact key _ _ rfl
    · exact Or.inl rfl
  | newTx x =>
    simp only [TVals.step]
    split
    · exact key _ _ rfl
    · exact Or.inl rfl
  | copy x z =>
    simp only [TVals.step]
    split
    · rename_i hz; have q := rd _ hz; exact key _ _ q
    · rename_i hz; have q := rd _ hz; exact key _ _ q
    · rename_i hz; have q := rd _ hz; exact key _ _ q
    · exact Or.inl rfl
  | assign x z =>
    simp only [TVals.step]
    split
    · exact Or.inl rfl
    · split
      · rename_i hz; have q := rd.1 _ hz; exact key _ _ q
      · rename_i hz; have q := rd.1 _ hz; exact key _ _ q
      · rename_i hz; have q := rd.1 _ hz; exact key _ _ q
      · exact Or.inl rfl
  | addInput x z =>
    simp only [TVals.step]
    split
    · rename_i hx hz; have q := rd.1 _ hx; exact key _ _ q
    · exact Or.inl rfl
  | addOutput x z =>
    simp only [TVals.step]
    split
    · rename_i hx hz; have q := rd.1 _ hx; exact key _ _ q
    · exact Or.inl rfl
  | onIn x op =>
    simp only [TVals.step]
    split
    · rename_i u e hx
      exact key _ _ ((actOn_status u op).trans (rd _ hx))
    · exact Or.inl rfl
  | onInput x i op =>
    simp only [TVals.step]
    split
    · rename_i u e hx
      split
      · have q := rd _ hx; exact key _ _ q
      · exact Or.inl rfl
    · exact Or.inl rfl
  | destroy x => exact Or.inr ⟨x, none, rfl, fun u hu => by cases hu⟩

theorem TVals.step_status {vs : TVals} {op : TOp} (rd : PReady vs op) {y : Nat} {v : TVal} (h : vs.step op y = some v) : vs y = some v ∨ v.status = .done := by
  rcases TVals.step_puts rd with e | ⟨x, w, e, hw⟩
  · rw [e] at h; exact Or.inl h
  · rw [e] at h
    unfold TVals.put at h
    split at h
    · exact Or.inr (hw v h)
    · exact Or.inl h

theorem PReady.ready {vs : TVals} {op : TOp} (S : ∀ x v, vs x = some v → v.Sound) (rd : PReady vs op) : TReady vs op := by
  cases op with
  | copy x y => exact fun v h => (S _ _ h).done (rd v h)
  | assign x y => exact ⟨fun v h => (S _ _ h).done (rd.1 v h), fun v e h => (S _ _ h).done (rd.2.1 v e h), fun v h => (S _ _ h).done (rd.2.2 v h)⟩
  | addInput x y => exact ⟨fun v h => (S _ _ h).done (rd.1 v h), fun v h => (S _ _ h).done (rd.2 v h)⟩
  | addOutput x y => exact ⟨fun v h => (S _ _ h).done (rd.1 v h), fun v h => (S _ _ h).done (rd.2 v h)⟩
  | onIn x op => exact fun v h => (S _ _ h).done (rd v h)
  | onInput x i op => exact fun v h => (S _ _ h).done (rd v h)
  | _ => trivial

/-- A transaction none of whose witnesses is emptied is as if its inputs were new. -/
theorem TxAt.fresh {o : HTx} {v : Tx} {u : List (TxIn × Bool)} {h : Heap} {A : Finset Nat} (a : TxAt o v u h A) (hs : ∀ i ∈ u, ¬ HTxIn.stale i) :
    HasVal (some (.tx o)) (some (.tx v (v.txIns.map holds))) h A := by
  have e : u.map Prod.snd = v.txIns.map holds := by
    rw [a.2.1, List.map_map]
    refine List.map_congr_left fun i hi => ?_
    obtain ⟨-, eu, A1, A2, h1, -⟩ := a
    obtain ⟨A1', e1, -⟩ := h1.each
    obtain ⟨q, A', hq⟩ := e1.each i hi
    obtain ⟨-, B1, B2, -, hw, -⟩ := hq
    have := hs i hi
    unfold HTxIn.stale at this
    show i.2 = decide (i.1.witness.arr ≠ [])
    by_cases hb : i.1.witness.arr = []
    · rw [decide_eq_false (by simp [hb])]
      cases hi2 : i.2 with
      | false => rfl
      | true => exact absurd ⟨hb, hi2⟩ this
    · rw [decide_eq_true hb]
      exact hw.2.2.1 hb
  rw [← e]
  exact a.hasVal

/-- What one statement does. -/
theorem pstep_ok {W : TWorld} {vs : TVals} {ow : Nat → Finset Nat} {L : Finset Nat} (I : PInv W vs ow L) (g : W.heap.Generous) (op : POp)
    (ok : PAllowed vs op) : ∃ W' ow' E, W.pstep op = .ok (W', vs.pout op) ∧ PInv W' (vs.pstep op) ow' (L ∪ E) ∧ Disjoint L E ∧
      W'.heap.denies = W.heap.denies ∧ E.card ≤ plosses vs op := by
  cases op with
  | op o =>
    obtain ⟨W', vs', ow', E, s⟩ := tstep_mem I.toTMem o ok.1 (PReady.ready I.sound ok.2)
    have e := s.val g (TSized.of (I.toTMem.doneSmall g))
    subst e
    refine ⟨W', ow', E, ?_, ⟨s.mem, fun y v h => ?_⟩, s.dis, s.denies, Nat.le_of_eq s.loss⟩
    · rw [TWorld.pstep, s.run, C.bind_ok]
      rfl
    · rcases s.fin y v h with h1 | h1
      · exact I.sound y v h1
      · rcases TVals.step_status ok.2 h with h2 | h2
        · exact I.sound y v h2
        · exact .of_done h1 h2
  | parse x s =>
    have key : ∀ {o : TObj} {v v' : TVal} {h' : Heap} {B E : Finset Nat}, vs x = some v → v' = v.parse s → W.pstep (.parse x s) = .ok (W.put x (some o) h', some (v.told s)) →
        Step W.heap h' (ow x) (B ∪ E) → Disjoint B E → HasVal (some o) (some v') h' B → E.card ≤ v'.hollow →
        ∃ W' ow' E, W.pstep (.parse x s) = .ok (W', vs.pout (.parse x s)) ∧ PInv W' (vs.pstep (.parse x s)) ow' (L ∪ E) ∧ Disjoint L E ∧
          W'.heap.denies = W.heap.denies ∧ E.card ≤ plosses vs (.parse x s) := by
      intro o v v' h' B E hv ev e st d m hl
      subst ev
      obtain ⟨I', dl⟩ := I.toTMem.put st d m
      refine ⟨W.put x (some o) h', owput ow x B, E, ?_, ⟨?_, ?_⟩, dl, st.denies, ?_⟩
      · rw [e, TVals.pout, hv]
        rfl
      · rw [TVals.pstep, hv]
        exact I'
      · intro y u hu
        rw [TVals.pstep, hv] at hu
        dsimp only at hu
        unfold TVals.put at hu
        split at hu
        · injection hu with hu
          rw [← hu]
          exact (I.sound x v hv).parse s
        · exact I.sound y u hu
      · rw [plosses, hv]
        exact hl
    rcases I.cases0 x with ⟨h1, h2, -⟩ | ⟨o, v, e, h1, h2, h3⟩ | ⟨o, v, h1, h2, h3⟩ | ⟨o, v, e, h1, h2, h3, h4⟩
    · refine ⟨W, ow, ∅, ?_, ?_, by simp, rfl, by simp⟩
      · rw [TWorld.pstep, h1, TVals.pout, h2]
        rfl
      · rw [TVals.pstep, h2, Finset.union_empty]
        exact I
    · obtain ⟨o', h', B, e1, a, st⟩ := HTxIn.fromStream_at I.wf g h3 (v' := (v.fromStream s).1) (r := (v.fromStream s).2.1) (s' := (v.fromStream s).2.2) rfl (ok _ h2).1 (I.sound x _ h2)
      refine key (o := .txIn o') (B := B) (E := ∅) h2 rfl ?_ (by simpa using st) (by simp) a (by simp)
      rw [TWorld.pstep, h1]
      dsimp only
      rw [e1, C.bind_ok]
      dsimp only
      rw [(HTx.inAt_facts _ _ _ a).1]
      rfl
    · obtain ⟨o', h', B, e1, a, st⟩ := HTxOut.fromStream_at I.wf g h3 (v' := (v.fromStream s).1) (r := (v.fromStream s).2.1) (s' := (v.fromStream s).2.2) rfl (ok _ h2).1 (I.sound x _ h2)
      refine key (o := .txOut o') (B := B) (E := ∅) h2 rfl ?_ (by simpa using st) (by simp) a (by simp)
      rw [TWorld.pstep, h1]
      dsimp only
      rw [e1, C.bind_ok]
      dsimp only
      rw [(HTx.outAt_facts _ _ _ a).1]
      rfl
    · obtain ⟨k1, k3⟩ := ok _ h2
      have k2 := Tx.fromStream_roomy v s (I.sound x _ h2).2.2
      obtain ⟨o', u', h', B, E, e1, a, st, d, ns, hl⟩ := HTx.fromStream_at I.wf g h3 s (not_spoilt (k3 v e rfl)) (I.sound x _ h2).2.1 k1 fun i hi => (k2 i hi).1.small
      refine key (o := .tx o') (B := B) (E := E) h2 rfl ?_ st d (a.fresh ns) hl
      rw [TWorld.pstep, h1]
      dsimp only
      rw [e1, C.bind_ok]
      dsimp only
      rw [show o'.status = (v.fromStream s).1.status by rw [a.1]]
      rfl

end UB
