import Verif.Lemmas.HeapPsbtProgram
import Verif.Spec.HeapElectrum

/-! ElectrumTx objects on the heap against their values. -/

namespace UB
open Heap Spec

/-! ### Arrays and transactions as separate parts -/

theorem Heap.ArrAt.eq {α β : Type} (P : α → β → HProp) (p : Nat) (os : List α) (vs : List β) : ArrAt P p os vs = BlockIf (vs ≠ []) p ⋆ EachAt P os vs := by
  funext h A
  apply propext
  constructor
  · intro a
    rcases a.cases with ⟨rfl, rfl, rfl⟩ | ⟨ho, hv, A', e, hb, hn, rfl⟩
    · rw [BlockIf.neg (by simp), emp_star]
      rfl
    · rw [BlockIf.pos hv]
      exact ⟨{p}, A', ⟨hb, rfl⟩, e, by simpa using hn, Finset.insert_eq _ _⟩
  · intro a
    by_cases hv : vs = []
    · rw [BlockIf.neg (by simp [hv]), emp_star] at a
      have hl := a.length
      rw [hv, List.length_nil, List.length_eq_zero_iff] at hl
      subst hv hl
      exact ⟨A, a, fun _ => a, fun c => absurd rfl c⟩
    · rw [BlockIf.pos hv] at a
      obtain ⟨A1, A2, ⟨hb, rfl⟩, e, d, rfl⟩ := a
      refine ⟨A2, e, fun c => ?_, fun _ => ⟨hb, by simpa using d, (Finset.insert_eq _ _).symm⟩⟩
      have hl := e.length
      rw [c, List.length_nil] at hl
      exact absurd (List.length_eq_zero_iff.1 hl.symm) hv

/-- The members of a transaction object beside its arrays. -/
def HTx.Like (o : HTx) (v : Tx) : Prop := o = ⟨v.status, v.bytesParsed, v.segwitFlag, v.version, o.inPtr, o.txIns, o.outPtr, o.txOuts, v.locktime⟩

theorem TxAt.eq (o : HTx) (v : Tx) (u : List (TxIn × Bool)) :
    TxAt o v u = fact (o.Like v ∧ v.txIns = u.map Prod.fst) ⋆ EachAt InAt o.txIns u ⋆ BlockIf (u ≠ []) o.inPtr ⋆ ArrAt OutAt o.outPtr o.txOuts v.txOuts := by
  have e : EachAt InAt o.txIns u ⋆ BlockIf (u ≠ []) o.inPtr ⋆ ArrAt OutAt o.outPtr o.txOuts v.txOuts =
      ArrAt InAt o.inPtr o.txIns u ⋆ ArrAt OutAt o.outPtr o.txOuts v.txOuts := by
    rw [ArrAt.eq InAt]
    ac_rfl
  rw [e]
  funext h A
  rw [fact_star]
  apply propext
  constructor
  · rintro ⟨e1, e2, A1, A2, h1, h2, d, rfl⟩
    exact ⟨⟨e1, e2⟩, A1, A2, h1, h2, d, rfl⟩
  · rintro ⟨⟨e1, e2⟩, A1, A2, h1, h2, d, rfl⟩
    exact ⟨e1, e2, A1, A2, h1, h2, d, rfl⟩

theorem Does.updEach {α β : Type} {P : α → β → HProp} (st : ∀ o v, Stable (P o v)) {f : α → HM α} {g : β → β}
    (hf : ∀ o v, Does (P o v) (f o) (fun o' => P o' (g v))) : ∀ (os : List α) (vs : List β),
      Does (EachAt P os vs) (HM.mapEach f os) (fun os' => EachAt P os' (vs.map g)) := by
  intro os
  induction os with
  | nil =>
    intro vs
    cases vs with
    | nil => exact Does.ret Stable.emp (fun h => h)
    | cons v vs => exact fun h A w g p => p.elim
  | cons o os ih =>
    intro vs
    cases vs with
    | nil => exact fun h A w g p => p.elim
    | cons v vs =>
      show Does (P o v ⋆ EachAt P os vs) (f o >>= fun y => HM.mapEach f os >>= fun ys => pure (y :: ys)) _
      refine (hf o v).step (st o v) (EachAt.stable st os vs) fun o' => ?_
      refine Does.comm ?_
      refine (ih vs).step (EachAt.stable st os vs) (st _ _) fun os' => ?_
      refine Does.comm ?_
      exact Does.ret ((st _ _).star (EachAt.stable st _ _)) (fun h => h)

/-! ### Inputs -/

/-- The input with its witness emptied. -/
def dropWit (v : TxIn × Bool) : TxIn × Bool := ({ v.1 with witness := v.1.witness.assign {} }, v.2)

theorem HTxIn.dropWit_does (o : HTxIn) (v : TxIn × Bool) :
    Does (InAt o v) (do let w ← HM.obj (o.witness.assign {}); return { o with witness := w }) (fun o' => InAt o' (dropWit v)) := by
  rintro h A w g ⟨eo, A1, A2, h1, h2, hd, rfl⟩
  obtain ⟨o', v', h', B, e, a', -, s, hg⟩ := HWitness.assign_at w h2 (WitAt.null w) (by simp)
  have hv := hg g (by decide)
  have e2 : v' = (v.1.witness.assign {}, v.2) := by
    rw [hv]
    unfold Witness.since
    have : (v.1.witness.assign {}).arr = [] := rfl
    rw [this]
    simp
  have l2 := (WitAt.stable _ _).live h2
  have l1 := (ScriptAt.stable _ _).live h1
  have d1 := s.apart w l1 hd
  refine ⟨{ o with witness := o' }, h', A1 ∪ B, ?_, ⟨?_, A1, B, (ScriptAt.stable _ _).keep w s l2 hd h1, ?_, d1, rfl⟩, ?_⟩
  · show (o.witness.assign {} h >>= fun r => _) = _
    rw [e]
    rfl
  · show ({ o with witness := o' } : HTxIn) = _
    rw [eo]
    rfl
  · rw [e2] at a'
    exact a'
  · have := s.frame w A1 (fun q hq hc => Finset.disjoint_left.1 hd hq hc) l1
    rw [Finset.union_comm A1, Finset.union_comm A1]
    exact this

/-- The input with its script emptied. -/
def dropScript (v : TxIn × Bool) : TxIn × Bool := ({ v.1 with scriptSig := v.1.scriptSig.assign {} }, v.2)

theorem HTxIn.dropScript_does (o : HTxIn) (v : TxIn × Bool) (hs : v.1.scriptSig.status = .done) :
    Does (InAt o v) (HM.obj (o.scriptSig.assign {})) (fun sc => InAt { o with scriptSig := sc } (dropScript v)) := by
  rintro h A w g ⟨eo, A1, A2, h1, h2, hd, rfl⟩
  obtain ⟨o', v', h', B, e, a', -, s, hg⟩ := HScript.assign_at w h1 (ScriptAt.null h) hs (by constructor <;> decide) (by simp)
  have hv := hg g (by decide)
  subst hv
  have l2 := (WitAt.stable _ _).live h2
  have l1 := (ScriptAt.stable _ _).live h1
  have d1 := s.apart w l2 hd.symm
  refine ⟨o', h', B ∪ A2, e, ⟨?_, B, A2, a', (WitAt.stable _ _).keep w s l1 hd.symm h2, d1.symm, rfl⟩, ?_⟩
  · show ({ o with scriptSig := o' } : HTxIn) = _
    rw [eo]
    rfl
  · exact s.frame w A2 (fun q hq hc => Finset.disjoint_left.1 hd hc hq) l2

namespace HElectrumTx

theorem legacyMeta_does (junk : Bytes) (o : HTxIn) (v : TxIn × Bool) (hs : v.1.scriptSig.status = .done) {r : Option (TxIn × ElectrumMeta)}
    (hr : ElectrumTx.legacyMeta junk v.1 = .ok r) :
    Does (InAt o v) (legacyMeta junk o) (fun x => match r with
      | none => fact (x = none) ⋆ InAt o v
      | some (i, m) => fun h A => ∃ o', x = some (o', m) ∧ i = (dropScript v).1 ∧ InAt o' (dropScript v) h A) := by
  refine Does.know (p := o.scriptSig.length = v.1.scriptSig.length) (fun {h A} a => ?_) fun el => ?_
  · obtain ⟨-, A1, A2, h1, -⟩ := a
    rw [h1.1]
    rfl
  unfold legacyMeta
  unfold ElectrumTx.legacyMeta at hr
  unfold HM.ifElse
  rw [el]
  by_cases h88 : v.1.scriptSig.length ≠ 88
  · rw [if_pos h88] at hr ⊢
    injection hr with hr
    subst hr
    exact Does.ret (InAt.stable _ _) (fun a => fact_star.2 ⟨rfl, a⟩)
  rw [if_neg h88] at hr ⊢
  obtain ⟨⟨n, arr⟩, ha, hr⟩ := C.ok_inv hr
  refine (Does.look (InAt.stable _ _) (a := v.1.scriptSig) (fun w a => ?_)).bind fun sc => Does.fact fun hsc => ?_
  · obtain ⟨-, A1, A2, h1, -⟩ := a
    exact HScript.load_at w h1 hs
  subst hsc
  refine Does.fromEmp ?_
  refine (Does.lift ha).step Stable.emp (InAt.stable _ _) fun x => Does.fact fun hx => ?_
  subst hx
  dsimp only at hr ⊢
  generalize (({} : HDPub).fromStream junk { bytes := arr.drop 6 }).1 = hd at hr ⊢
  by_cases h1 : hd.key.status = .ub
  · rw [if_pos h1] at hr
    cases hr
  rw [if_neg h1] at hr ⊢
  by_cases h2 : hd.key.status ≠ .done
  · rw [if_pos h2] at hr ⊢
    injection hr with hr
    subst hr
    exact Does.ret (InAt.stable _ _) (fun a => fact_star.2 ⟨rfl, a⟩)
  rw [if_neg h2] at hr ⊢
  injection hr with hr
  subst hr
  dsimp only
  refine (HTxIn.dropScript_does o v hs).bind fun sc => ?_
  exact Does.ret (InAt.stable _ _) (fun a => ⟨_, rfl, rfl, a⟩)

theorem legacyMetas_does (junk : Bytes) : ∀ (os : List HTxIn) (vs : List (TxIn × Bool)) (_ : ∀ v ∈ vs, v.1.scriptSig.status = .done) (_ : ∀ v ∈ vs, ¬ HTxIn.stale v)
    {r : List TxIn × List ElectrumMeta × Bool} (_ : ElectrumTx.legacyMetas junk (vs.map Prod.fst) = .ok r),
    Does (EachAt InAt os vs) (legacyMetas junk os) (fun x h A => ∃ vs', x.2 = r.2 ∧ vs'.map Prod.fst = r.1 ∧ vs'.length = vs.length ∧ (∀ v ∈ vs', ¬ HTxIn.stale v) ∧
      EachAt InAt x.1 vs' h A) := by
  intro os
  induction os with
  | nil =>
    intro vs hd hn r hr
    cases vs with
    | nil =>
      injection hr with hr
      subst hr
      exact Does.ret Stable.emp (fun a => ⟨[], rfl, rfl, rfl, hn, a⟩)
    | cons v vs => exact fun h A w g p => p.elim
  | cons o os ih =>
    intro vs hd hn r hr
    cases vs with
    | nil => exact fun h A w g p => p.elim
    | cons v vs =>
      rw [List.map_cons, ElectrumTx.legacyMetas] at hr
      obtain ⟨r1, h1, hr⟩ := C.ok_inv hr
      have sv := EachAt.stable InAt.stable os vs
      unfold legacyMetas
      refine (legacyMeta_does junk o v (hd v (by simp)) h1).step (InAt.stable o v) sv fun x => ?_
      cases r1 with
      | none =>
        dsimp only at hr ⊢
        injection hr with hr
        subst hr
        rw [Star.assoc]
        refine Does.fact fun hx => ?_
        subst hx
        dsimp only
        refine Does.know (p := os.length = vs.length) (fun {h A} a => ?_) fun hl => ?_
        · obtain ⟨_, _, -, e, -⟩ := a
          exact e.length
        refine Does.ret ((InAt.stable _ _).star sv) (fun a => ⟨v :: vs, ?_, by simp, rfl, hn, a⟩)
        dsimp only
        rw [List.map_cons, List.map_cons, List.map_const', List.map_const', List.length_map, hl]
      | some im =>
        obtain ⟨i, m⟩ := im
        dsimp only at hr ⊢
        obtain ⟨r2, h2, hr⟩ := C.ok_inv hr
        injection hr with hr
        subst hr
        refine Does.exStar fun o' => ?_
        have e0 : (fun h A => x = some (o', m) ∧ i = (dropScript v).1 ∧ InAt o' (dropScript v) h A) =
            fact (x = some (o', m) ∧ i = (dropScript v).1) ⋆ InAt o' (dropScript v) := by
          funext h A
          rw [fact_star, and_assoc]
        rw [e0, Star.assoc]
        refine Does.fact fun hx => ?_
        obtain ⟨rfl, rfl⟩ := hx
        dsimp only
        refine Does.comm ?_
        refine (ih vs (fun a ha => hd a (by simp [ha])) (fun a ha => hn a (by simp [ha])) h2).step sv (InAt.stable _ _) fun y => ?_
        refine Does.exStar fun vs' => ?_
        have e1 : (fun h A => y.2 = r2.2 ∧ vs'.map Prod.fst = r2.1 ∧ vs'.length = vs.length ∧ (∀ v ∈ vs', ¬ HTxIn.stale v) ∧ EachAt InAt y.1 vs' h A) =
            fact (y.2 = r2.2 ∧ vs'.map Prod.fst = r2.1 ∧ vs'.length = vs.length ∧ (∀ v ∈ vs', ¬ HTxIn.stale v)) ⋆ EachAt InAt y.1 vs' := by
          funext h A
          rw [fact_star]
          simp only [and_assoc]
        rw [e1, Star.assoc]
        refine Does.fact fun hy => ?_
        obtain ⟨y1, y2, y3, y4⟩ := hy
        refine Does.comm ?_
        refine Does.ret ((InAt.stable _ _).star (EachAt.stable InAt.stable _ _)) (fun a => ⟨dropScript v :: vs', ?_, ?_, ?_, ?_, a⟩)
        · show (m :: y.2.1, y.2.2) = _
          rw [show y.2.1 = r2.2.1 from congrArg Prod.fst y1, show y.2.2 = r2.2.2 from congrArg Prod.snd y1]
        · simp [y2]
        · simp [y3]
        · intro a ha
          rcases List.mem_cons.1 ha with rfl | ha
          · exact hn v (by simp)
          · exact y4 a ha

end HElectrumTx

/-! ### Blocks -/

theorem Does.newPos : Does emp HM.new (fun p => fact (p ≠ 0) ⋆ Block p) := by
  rintro h A w - rfl
  obtain ⟨s, b, -⟩ := new_ok w
  exact ⟨h.new.1, h.new.2, _, rfl, fact_star.2 ⟨s.wf.ne b, by rw [b]; simp, rfl⟩, s⟩

/-- `delete [] p` also of a null pointer. -/
theorem Does.freeNull {p : Nat} : Does (BlockIf (p ≠ 0) p) (HM.free p) (fun _ => emp) := by
  by_cases h : p ≠ 0
  · rw [BlockIf.pos h]
    exact Does.free
  · rw [BlockIf.neg h]
    rw [not_not] at h
    subst h
    rintro h A w - rfl
    exact ⟨(), h, ∅, rfl, rfl, Step.refl w (by simp)⟩

/-! ### The objects -/

/-- The members of the object beside the transaction and its memory. -/
def HElectrumTx.Like (o : HElectrumTx) (v : ElectrumTx) : Prop := o = ⟨v.status, v.bytesParsed, v.isSegwit, o.tx, o.ptr, v.metas⟩ ∧ (v.metas ≠ [] → o.ptr ≠ 0) ∧
  (v.status = .incomplete → v.isSegwit = false → o.ptr = 0)

/-- The object `o` holds `v`, with the history `u` of the inputs. -/
def ElectU (o : HElectrumTx) (v : ElectrumTx) (u : List (TxIn × Bool)) : HProp := fact (o.Like v) ⋆ TxAt o.tx v.tx u ⋆ BlockIf (o.ptr ≠ 0) o.ptr

/-- The object `o` holds `v`, and is spoiled or not. -/
def ElectAt (o : HElectrumTx) (v : ElectrumTx × Bool) : HProp := fun h A => ∃ u, ElectU o v.1 u h A ∧ ((∃ i ∈ u, HTxIn.stale i) ↔ v.2 = true)

theorem ElectU.stable (o : HElectrumTx) (v : ElectrumTx) (u : List (TxIn × Bool)) : Stable (ElectU o v u) :=
  (Stable.fact _).star ((TxAt.stable _ _ _).star (Stable.blockIf _ _))

theorem ElectAt.stable (o : HElectrumTx) (v : ElectrumTx × Bool) : Stable (ElectAt o v) := Stable.ex fun u => (ElectU.stable o v.1 u).and _

theorem ElectAt.null {h : Heap} {A : Finset Nat} (a : emp h A) : ElectAt {} ({}, false) h A := by
  refine ⟨[], fact_star.2 ⟨⟨rfl, fun c => absurd rfl c, fun _ _ => rfl⟩, ?_⟩, by simp⟩
  rw [BlockIf.neg (by simp), star_emp, show A = ∅ from a]
  exact TxAt.null h

/-- The invariant of the values. -/
structure ElectrumTx.Inv (v : ElectrumTx) (b : Bool) : Prop where
  run : v.status = .incomplete → v.isSegwit = false → v.tx.Sound ∧ v.tx.status ≠ .failed ∧ v.metas = [] ∧ b = false
  seg : v.status = .incomplete → v.isSegwit = true → v.metas.length = v.tx.txIns.length ∧ v.tx.status = .done
  done : v.status = .done → v.metas.length = v.tx.txIns.length

theorem ElectrumTx.Inv.null : ({} : ElectrumTx).Inv false := ⟨(fun c => by cases c), (fun c => by cases c), fun _ => rfl⟩

namespace HTx

theorem length_at {h : Heap} {o : HTx} {v : Tx} {u : List (TxIn × Bool)} {A : Finset Nat} (a : TxAt o v u h A) : o.length h = .ok (v.length, h) := by
  unfold HTx.length
  show (HM.access _ _ h >>= fun r => _) = _
  have e1 : HM.access o.inPtr o.txIns.length h = .ok ((), h) := by
    show (h.access _ _ >>= fun a => C.ok (a, h)) = _
    rw [(access_at a).1]
    rfl
  have e2 : HM.access o.outPtr o.txOuts.length h = .ok ((), h) := by
    show (h.access _ _ >>= fun a => C.ok (a, h)) = _
    rw [(access_at a).2]
    rfl
  rw [e1, C.bind_ok]
  show (HM.access _ _ h >>= fun r => _) = _
  rw [e2, C.bind_ok]
  have wl : ∀ (o : HTxIn) (v : TxIn × Bool) A, InAt o v h A → o.witness.numElements = v.1.witness.numElements := by
    rintro o v A ⟨-, A1, A2, -, h2, -⟩
    rw [h2.1]
    rfl
  have sw : (o.txIns.any fun i => decide (i.witness.numElements % 256 > 0)) = v.isSegwit := by
    have := congrArg (List.any · id) (ins_map a (f := fun i => decide (i.witness.numElements % 256 > 0)) (g := fun i => i.isSegwit)
      (fun o v A i => by rw [wl o v A i]; rfl))
    simp only [List.any_map] at this
    exact this
  have ei := ins_map a (f := fun i => i.length + (if v.isSegwit then i.witness.witnessLen + lenVarIntN i.witness.numElements else 0))
    (g := fun i => i.length + (if v.isSegwit then i.witness.length else 0))
    (fun o v A i => by rw [(inAt_facts o v A i).2.1, ← (inAt_facts o v A i).2.2.2, Nat.add_comm (lenVarIntN _)])
  have eo := outs_map a (f := fun x => x.length) (g := fun x => x.length) (fun o v A h => (outAt_facts o v A h).2)
  have l1 : o.txIns.length = v.txIns.length := by simpa using congrArg List.length ei
  have l2 : o.txOuts.length = v.txOuts.length := by simpa using congrArg List.length eo
  show C.ok (_, h) = _
  congr 2
  unfold Tx.length
  rw [sw, l1, l2, ei, eo]

theorem length_does (o : HTx) (v : Tx) (u : List (TxIn × Bool)) : Does (TxAt o v u) o.length (fun n => fact (n = v.length) ⋆ TxAt o v u) :=
  fun h A w _ a => ⟨_, h, A, length_at a, fact_star.2 ⟨rfl, a⟩, Step.refl w ((TxAt.stable _ _ _).live a)⟩

theorem len_at {h : Heap} {o : HTx} {v : Tx} {u : List (TxIn × Bool)} {A : Finset Nat} (a : TxAt o v u h A) : o.txIns.length = v.txIns.length := by
  obtain ⟨-, eu, A1, A2, h1, h2, -⟩ := a
  rw [h1.length, eu, List.length_map]

end HTx

namespace HElectrumTx

/-- What is to be found after parsing. -/
def Post (r : ElectrumTx × Nat × PStream) (P : HElectrumTx → HProp) (x : Option (HElectrumTx × Nat × PStream)) : HProp := fun h A => ∃ o', x = some (o', r.2) ∧ P o' h A

theorem stop_does (o : HElectrumTx) (v : ElectrumTx) (u : List (TxIn × Bool)) (st : Status) (br : Nat) (s : PStream) (hst : st = .incomplete → v.status = .incomplete) :
    Does (ElectU o v u) (pure (some (o.stop st br s))) (Post (v.stop st br s) (ElectU · (v.stop st br s).1 u)) := by
  refine Does.ret (ElectU.stable o v u) fun {h A} a => ?_
  obtain ⟨⟨e1, e2, e3⟩, a⟩ := fact_star.1 a
  refine ⟨(o.stop st br s).1, rfl, fact_star.2 ⟨⟨?_, e2, fun c d => e3 (hst c) d⟩, a⟩⟩
  show ({ o with status := st, bytesParsed := o.bytesParsed + br } : HElectrumTx) = _
  rw [e1]
  rfl

theorem readSegwit_does (junk : Bytes) (fuel : Nat) (o : HElectrumTx) (v : ElectrumTx) (u : List (TxIn × Bool)) (br : Nat) (s : PStream)
    (hm : v.isSegwit = true → v.metas.length = v.tx.txIns.length) {r : ElectrumTx × Nat × PStream} (hr : v.readSegwit junk fuel br s = some r) :
    Does (ElectU o v u) (o.readSegwit junk fuel br s) (Post r (ElectU · r.1 u)) := by
  refine Does.know (p := o.Like v ∧ o.tx.status = v.tx.status ∧ o.tx.txIns.length = v.tx.txIns.length) (fun {h A} a => ?_) fun ⟨⟨e1, e2, e3⟩, es, el⟩ => ?_
  · obtain ⟨f, A1, A2, a, -⟩ := fact_star.1 a
    exact ⟨f, by rw [a.1], HTx.len_at a⟩
  unfold readSegwit HM.ifElse
  unfold ElectrumTx.readSegwit at hr
  have f1 : o.isSegwit = v.isSegwit := by rw [e1]
  have f2 : o.metas = v.metas := by rw [e1]
  have f3 : o.bytesParsed = v.bytesParsed := by rw [e1]
  have f4 : o.status = v.status := by rw [e1]
  rw [f1, es]
  by_cases hc : v.isSegwit = true ∧ v.tx.status = .done
  · rw [if_pos hc] at hr ⊢
    have hm := hm hc.1
    unfold ElectU
    refine Does.fact fun _ => ?_
    refine (HTx.length_does o.tx v.tx u).step (TxAt.stable _ _ _) (Stable.blockIf _ _) fun len => ?_
    rw [Star.assoc]
    refine Does.fact fun hlen => ?_
    subst hlen
    refine (Does.access ((TxAt.stable _ _ _).star (Stable.blockIf _ _)) fun {h A} a hn => ?_).bind fun _ => ?_
    · have hp : o.ptr ≠ 0 := by
        apply e2
        intro c
        rw [c, List.length_nil] at hm
        omega
      rw [BlockIf.pos hp] at a
      obtain ⟨_, _, -, b, -⟩ := a
      exact b.1
    rw [if_neg (by rw [f2, el]; exact not_not.2 hm)]
    refine Does.ret ((TxAt.stable _ _ _).star (Stable.blockIf _ _)) fun {h A} a => ?_
    rw [f2, f3]
    dsimp only at hr
    cases hrm : ElectrumTx.readMetas junk fuel (6 + v.tx.length + 2 - 4) v.metas (v.bytesParsed + br) s with
    | none =>
      rw [hrm] at hr
      cases hr
    | some q =>
      obtain ⟨ms, pos, s'⟩ := q
      rw [hrm] at hr
      have hml : ms ≠ [] → v.metas ≠ [] := by
        rintro c d
        rw [d] at hrm
        unfold ElectrumTx.readMetas at hrm
        injection hrm with hrm
        injection hrm with hrm
        exact c hrm.symm
      have key : ∀ (st : Status) (n : Nat) (l : UInt32), (fact (HElectrumTx.Like { o with metas := ms, tx := { o.tx with locktime := l }, isSegwit := v.isSegwit, status := st, bytesParsed := v.bytesParsed + n }
          { v with metas := ms, tx := { v.tx with locktime := l }, status := st, bytesParsed := v.bytesParsed + n }) ⋆
          TxAt { o.tx with locktime := l } { v.tx with locktime := l } u ⋆ BlockIf (o.ptr ≠ 0) o.ptr) h A := by
        intro st n l
        refine fact_star.2 ⟨⟨?_, fun c => e2 (hml c), fun _ c => ?_⟩, ?_⟩
        · rfl
        · rw [hc.1] at c
          cases c
        · exact star_mono (fun t => ⟨congrArg (fun t : HTx => { t with locktime := l }) t.1, t.2⟩) (fun t => t) a
      have el2 : o.tx.locktime = v.tx.locktime := by
        obtain ⟨_, _, a, -⟩ := a
        rw [a.1]
      replace hr : (if ms.any (fun m => m.hd.key.status = .ub) then _ else _ : Option _) = some r := hr
      dsimp only
      rw [hrm]
      show Post r _ (if ms.any (fun m => m.hd.key.status = .ub) then _ else _) h A
      split at hr
      · rename_i hu
        rw [if_pos hu]
        injection hr with hr
        subst hr
        refine ⟨_, ?_, key _ _ _⟩
        rw [el2]
        rfl
      · rename_i hu
        rw [if_neg hu]
        injection hr with hr
        subst hr
        refine ⟨_, ?_, key _ _ _⟩
        rw [el2]
        rw [f4]
        rfl
  · rw [if_neg hc] at hr ⊢
    injection hr with hr
    subst hr
    rw [f4]
    exact stop_does o v u v.status br s (fun h => h)

theorem segwitStart_does (o : HElectrumTx) (v : ElectrumTx) (u : List (TxIn × Bool)) (hs : v.status = .incomplete) (hw : v.isSegwit = false) :
    Does (ElectU o v u) o.segwitStart (ElectU · v.segwitStart (u.map dropWit)) := by
  unfold ElectU
  refine Does.fact fun ⟨e1, e2, e3⟩ => ?_
  have hp := e3 hs hw
  rw [BlockIf.neg (by simp [hp]), star_emp]
  rw [TxAt.eq]
  refine Does.fact fun ⟨l1, l2⟩ => ?_
  unfold segwitStart
  have sr := (Stable.blockIf (u ≠ []) o.tx.inPtr).star (ArrAt.stable OutAt.stable o.tx.outPtr o.tx.txOuts v.tx.txOuts)
  refine (Does.updEach InAt.stable (fun o v => HTxIn.dropWit_does o v) o.tx.txIns u).step (EachAt.stable InAt.stable _ _) sr fun ins => ?_
  refine Does.know (p := ins.length = v.tx.txIns.length) (fun {h A} a => ?_) fun hl => ?_
  · obtain ⟨_, _, a, -⟩ := a
    rw [a.length, List.length_map, l2, List.length_map]
  refine Does.fromEmp ?_
  refine Does.newPos.step Stable.emp ((EachAt.stable InAt.stable _ _).star sr) fun p => ?_
  rw [Star.assoc]
  refine Does.fact fun hp' => ?_
  refine Does.ret ((Stable.block p).star ((EachAt.stable InAt.stable _ _).star sr)) fun {h A} a => ?_
  refine fact_star.2 ⟨⟨?_, fun _ => hp', fun _ c => by cases c⟩, ?_⟩
  · dsimp only [ElectrumTx.segwitStart]
    rw [List.map_const', List.map_const', hl, e1]
  · dsimp only
    rw [BlockIf.pos hp', TxAt.eq]
    rw [Star.comm (Block p)] at a
    have k1 : HTx.Like { o.tx with txIns := ins, status := .done, locktime := 0 } v.segwitStart.tx := by
      unfold HTx.Like at l1 ⊢
      dsimp only [ElectrumTx.segwitStart]
      rw [l1]
    have k2 : v.segwitStart.tx.txIns = (u.map dropWit).map Prod.fst := by
      dsimp only [ElectrumTx.segwitStart]
      rw [l2, List.map_map, List.map_map]
      rfl
    have k3 : BlockIf (u.map dropWit ≠ []) o.tx.inPtr = BlockIf (u ≠ []) o.tx.inPtr := by
      unfold BlockIf
      simp
    refine star_mono (fun a => fact_star.2 ⟨⟨k1, k2⟩, ?_⟩) (fun a => a) a
    dsimp only
    rw [k3]
    exact a

theorem stale_drop {u : List (TxIn × Bool)} (hs : ∀ i ∈ u, ¬ HTxIn.stale i) (he : ∀ i ∈ u, i.1.witness.arr ≠ [] → i.2 = true) :
    (∃ i ∈ u.map dropWit, HTxIn.stale i) ↔ ((u.map Prod.fst).any fun i => decide (i.witness.arr ≠ [])) = true := by
  rw [List.any_eq_true]
  constructor
  · rintro ⟨i, hi, h1, h2⟩
    obtain ⟨j, hj, rfl⟩ := List.mem_map.1 hi
    refine ⟨j.1, List.mem_map_of_mem hj, ?_⟩
    rw [decide_eq_true_eq]
    intro c
    exact hs j hj ⟨c, h2⟩
  · rintro ⟨i, hi, h1⟩
    obtain ⟨j, hj, rfl⟩ := List.mem_map.1 hi
    exact ⟨dropWit j, List.mem_map_of_mem hj, rfl, he j hj (of_decide_eq_true h1)⟩

theorem afterTx_does (junk : Bytes) (fuel : Nat) (o : HElectrumTx) (v : ElectrumTx) (b : Bool) (br : Nat) (s : PStream)
    (hf : v.tx.status = .failed → b = false ∧ v.status = .incomplete ∧ v.isSegwit = false)
    (hm : v.isSegwit = true → v.metas.length = v.tx.txIns.length) {r : ElectrumTx × Nat × PStream} (hr : v.afterTx junk fuel br s = some r) :
    Does (ElectAt o (v, b)) (o.afterTx junk fuel br s) (Post r (ElectAt · (r.1, b || v.tx.spoils))) := by
  refine Does.ex fun u => ?_
  have key : ∀ {P : HProp} {x : HM (Option (HElectrumTx × Nat × PStream))} {u : List (TxIn × Bool)} {b : Bool}, ((∃ i ∈ u, HTxIn.stale i) ↔ b = true) →
      Does P x (Post r (ElectU · r.1 u)) → Does P x (Post r (ElectAt · (r.1, b))) := by
    intro P x u b hb hd
    refine hd.post ?_
    rintro y h A ⟨o', e, a⟩
    exact ⟨o', e, u, a, hb⟩
  have e0 : (fun h A => ElectU o v u h A ∧ ((∃ i ∈ u, HTxIn.stale i) ↔ b = true)) = fact ((∃ i ∈ u, HTxIn.stale i) ↔ b = true) ⋆ ElectU o v u := by
    funext h A
    rw [fact_star, and_comm]
  show Does (fun h A => ElectU o v u h A ∧ ((∃ i ∈ u, HTxIn.stale i) ↔ b = true)) _ _
  rw [e0]
  refine Does.fact fun hb => ?_
  refine Does.know (p := o.tx.status = v.tx.status ∧ v.tx.txIns = u.map Prod.fst ∧ (∀ i ∈ u, i.1.witness.arr ≠ [] → i.2 = true) ∧
    o.tx.txIns.map (fun i => i.witness.status) = v.tx.txIns.map (fun i => i.witness.status)) (fun {h A} a => ?_) fun ⟨es, eu, he, ew⟩ => ?_
  · obtain ⟨-, A1, A2, a, -⟩ := fact_star.1 a
    refine ⟨by rw [a.1], a.2.1, fun i hi => ?_, HTx.ins_map a (fun o v A i => (HTx.inAt_facts o v A i).2.2.1)⟩
    obtain ⟨-, -, B1, B2, h1, -⟩ := a
    obtain ⟨B1', e1, -⟩ := h1.each
    obtain ⟨o, A', q⟩ := e1.each i hi
    obtain ⟨-, C1, C2, -, q, -⟩ := q
    exact q.2.2.1
  unfold afterTx HM.ifElse
  unfold ElectrumTx.afterTx at hr
  rw [es]
  by_cases hc : v.tx.status = .failed
  · rw [if_pos hc] at hr ⊢
    obtain ⟨rfl, hi, hw⟩ := hf hc
    have hns : ∀ i ∈ u, ¬ HTxIn.stale i := fun i hi c => by
      have := hb.1 ⟨i, hi, c⟩
      cases this
    refine (Does.access (ElectU.stable o v u) fun {h A} a hn => ?_).bind fun _ => ?_
    · obtain ⟨-, A1, A2, a, -⟩ := fact_star.1 a
      obtain ⟨-, -, B1, B2, h1, -⟩ := a
      rcases h1.cases with ⟨c, -⟩ | ⟨-, -, _, -, hb, -⟩
      · rw [c] at hn
        cases hn
      · exact hb
    have hsp : v.tx.spoils = ((match v.tx.txIns with
        | i :: _ => decide (i.witness.status = .failed)
        | [] => false) && v.tx.txIns.any fun i => decide (i.witness.arr ≠ [])) := by
      unfold Tx.spoils
      rw [decide_eq_true hc, Bool.true_and]
      rfl
    cases hti : v.tx.txIns with
    | nil =>
      rw [hti] at hr ew hsp
      have : o.tx.txIns = [] := by simpa using ew
      rw [this]
      unfold afterFailed
      dsimp only at hr
      injection hr with hr
      subst hr
      rw [hsp]
      exact key hb (stop_does o v u .failed br s (fun c => by cases c))
    | cons i is =>
      rw [hti] at hr ew hsp
      cases hoi : o.tx.txIns with
      | nil => rw [hoi] at ew; cases ew
      | cons j js =>
        rw [hoi] at ew
        have ej : j.witness.status = i.witness.status := by
          injection ew
        dsimp only at hr hsp
        unfold afterFailed HM.ifElse
        dsimp only
        rw [ej]
        by_cases hw1 : i.witness.status = .failed
        · rw [if_pos hw1] at hr ⊢
          rw [decide_eq_true hw1, Bool.true_and] at hsp
          refine (segwitStart_does o v u hi hw).bind fun o' => ?_
          rw [Bool.false_or, hsp, ← hti, eu]
          refine key (stale_drop hns he) (readSegwit_does junk fuel o' v.segwitStart (u.map dropWit) br s (fun _ => ?_) hr)
          simp [ElectrumTx.segwitStart]
        · rw [if_neg hw1] at hr ⊢
          rw [decide_eq_false hw1, Bool.false_and] at hsp
          injection hr with hr
          subst hr
          rw [hsp]
          exact key hb (stop_does o v u .failed br s (fun c => by cases c))
  · rw [if_neg hc] at hr ⊢
    have hsp : v.tx.spoils = false := by
      unfold Tx.spoils
      rw [decide_eq_false hc]
      rfl
    rw [hsp, Bool.or_false]
    exact key hb (readSegwit_does junk fuel o v u br s hm hr)

end HElectrumTx

theorem ElectAt.eq_whole (o : HElectrumTx) (v : ElectrumTx) : ElectAt o (v, false) = fact (o.Like v) ⋆ CTxAt o.tx v.tx ⋆ BlockIf (o.ptr ≠ 0) o.ptr := by
  funext h A
  rw [fact_star]
  apply propext
  constructor
  · rintro ⟨u, a, hb⟩
    obtain ⟨f, A1, A2, a', c, d, rfl⟩ := fact_star.1 a
    exact ⟨f, A1, A2, ⟨u, a', fun i hi st => by have := hb.1 ⟨i, hi, st⟩; cases this⟩, c, d, rfl⟩
  · rintro ⟨f, A1, A2, ⟨u, a, hu⟩, c, d, rfl⟩
    refine ⟨u, fact_star.2 ⟨f, A1, A2, a, c, d, rfl⟩, ⟨?_, fun c => by cases c⟩⟩
    rintro ⟨i, hi, st⟩
    exact absurd st (hu i hi)

namespace HElectrumTx

theorem readLegacy_does (junk : Bytes) (fuel : Nat) (o : HElectrumTx) (v : ElectrumTx) (br : Nat) (s : PStream) (hi : v.status = .incomplete) (hw : v.isSegwit = false)
    (hd : v.tx.status = .done) (ha : v.tx.AllDone) {ins : List TxIn} {ms : List ElectrumMeta} {ok : Bool} (hl : ElectrumTx.legacyMetas junk v.tx.txIns = .ok (ins, ms, ok))
    {r : ElectrumTx × Nat × PStream}
    (hr : (if ok = true then ElectrumTx.afterTx junk fuel { v with tx := { v.tx with txIns := ins }, metas := ms, status := .done } br s
      else some (ElectrumTx.stop { v with tx := { v.tx with txIns := ins }, metas := ms, status := .done } .failed br s)) = some r) :
    Does (ElectAt o (v, false)) (o.readLegacy junk fuel br s) (Post r (ElectAt · (r.1, false))) := by
  rw [ElectAt.eq_whole]
  refine Does.fact fun ⟨e1, e2, e3⟩ => ?_
  rw [BlockIf.neg (by simp [e3 hi hw]), star_emp]
  refine Does.ex fun u => ?_
  have e0 : (fun h A => TxAt o.tx v.tx u h A ∧ ∀ i ∈ u, ¬ HTxIn.stale i) = fact (∀ i ∈ u, ¬ HTxIn.stale i) ⋆ TxAt o.tx v.tx u := by
    funext h A
    rw [fact_star, and_comm]
  show Does (fun h A => TxAt o.tx v.tx u h A ∧ ∀ i ∈ u, ¬ HTxIn.stale i) _ _
  rw [e0]
  refine Does.fact fun hu => ?_
  have st := TxAt.stable o.tx v.tx u
  unfold readLegacy
  refine Does.fromEmp ?_
  refine Does.newPos.step Stable.emp st fun p => ?_
  rw [Star.assoc]
  refine Does.fact fun hp => ?_
  refine (Does.access ((Stable.block p).star st) fun {h A} a hn => ?_).bind fun _ => ?_
  · obtain ⟨_, _, -, a, -⟩ := a
    obtain ⟨-, -, B1, B2, h1, -⟩ := a
    rcases h1.cases with ⟨c, -⟩ | ⟨-, -, _, -, hb, -⟩
    · rw [c] at hn
      cases hn
    · exact hb
  rw [TxAt.eq]
  refine Does.swap (P := fact (o.tx.Like v.tx ∧ v.tx.txIns = u.map Prod.fst) ⋆ EachAt InAt o.tx.txIns u ⋆
    BlockIf (u ≠ []) o.tx.inPtr ⋆ ArrAt OutAt o.tx.outPtr o.tx.txOuts v.tx.txOuts ⋆ Block p) ?_ (by ac_rfl)
  refine Does.fact fun ⟨l1, l2⟩ => ?_
  have sr := (Stable.blockIf (u ≠ []) o.tx.inPtr).star ((ArrAt.stable OutAt.stable o.tx.outPtr o.tx.txOuts v.tx.txOuts).star (Stable.block p))
  rw [l2] at hl
  refine (legacyMetas_does junk o.tx.txIns u (fun i hi => ha.1 i.1 (by rw [l2]; exact List.mem_map_of_mem hi)) hu hl).step (EachAt.stable InAt.stable _ _) sr fun x => ?_
  refine Does.exStar fun u' => ?_
  have e4 : (fun h A => x.2 = (ms, ok) ∧ u'.map Prod.fst = ins ∧ u'.length = u.length ∧ (∀ v ∈ u', ¬ HTxIn.stale v) ∧ EachAt InAt x.1 u' h A) =
      fact (x.2 = (ms, ok) ∧ u'.map Prod.fst = ins ∧ u'.length = u.length ∧ (∀ v ∈ u', ¬ HTxIn.stale v)) ⋆ EachAt InAt x.1 u' := by
    funext h A
    rw [fact_star]
    simp only [and_assoc]
  rw [e4, Star.assoc]
  refine Does.fact fun ⟨x1, x2, x3, x4⟩ => ?_
  obtain ⟨ins', ms', ok'⟩ := x
  injection x1 with x1 x1'
  subst x1 x1'
  dsimp only
  have fin : ∀ {h A}, (EachAt InAt ins' u' ⋆ BlockIf (u ≠ []) o.tx.inPtr ⋆ ArrAt OutAt o.tx.outPtr o.tx.txOuts v.tx.txOuts ⋆ Block p) h A →
      ElectAt { o with tx := { o.tx with txIns := ins' }, ptr := p, metas := ms', status := .done }
        ({ v with tx := { v.tx with txIns := ins }, metas := ms', status := .done }, false) h A := by
    intro h A a
    refine ⟨u', fact_star.2 ⟨⟨?_, fun _ => hp, fun c => by cases c⟩, ?_⟩, ⟨?_, fun c => by cases c⟩⟩
    · rw [e1]
    · dsimp only
      rw [BlockIf.pos hp, TxAt.eq, Star.assoc]
      have k1 : HTx.Like { o.tx with txIns := ins' } { v.tx with txIns := ins } := by
        unfold HTx.Like at l1 ⊢
        rw [l1]
      refine fact_star.2 ⟨⟨k1, x2.symm⟩, ?_⟩
      have k3 : BlockIf (u' ≠ []) o.tx.inPtr = BlockIf (u ≠ []) o.tx.inPtr := by
        have : u' ≠ [] ↔ u ≠ [] := by rw [← List.length_pos_iff, ← List.length_pos_iff, x3]
        unfold BlockIf
        simp only [this]
      dsimp only
      rw [k3, Star.assoc, Star.assoc]
      exact a
    · rintro ⟨i, hi, c⟩
      exact absurd c (x4 i hi)
  unfold HM.ifElse
  by_cases hok : ok' = true
  · rw [if_pos hok] at hr ⊢
    have := afterTx_does junk fuel { o with tx := { o.tx with txIns := ins' }, ptr := p, metas := ms', status := .done }
      { v with tx := { v.tx with txIns := ins }, metas := ms', status := .done } false br s (fun c => by rw [hd] at c; cases c) (fun c => by rw [hw] at c; cases c) hr
    refine (this.post ?_).pre fin
    rintro y h A ⟨o', e, a⟩
    refine ⟨o', e, ?_⟩
    have hsp : Tx.spoils { v.tx with txIns := ins } = false := by
      unfold Tx.spoils
      rw [decide_eq_false (by rw [hd]; simp)]
      rfl
    rw [hsp] at a
    exact a
  · rw [if_neg hok] at hr ⊢
    injection hr with hr
    subst hr
    refine Does.pre ?_ fin
    refine Does.ex fun w => ?_
    have e5 : ∀ (o : HElectrumTx) (v : ElectrumTx), (fun h A => ElectU o v w h A ∧ ((∃ i ∈ w, HTxIn.stale i) ↔ false = true)) = fact ((∃ i ∈ w, HTxIn.stale i) ↔ false = true) ⋆ ElectU o v w := by
      intro o v
      funext h A
      rw [fact_star, and_comm]
    show Does (fun h A => ElectU _ _ w h A ∧ ((∃ i ∈ w, HTxIn.stale i) ↔ false = true)) _ _
    rw [e5]
    refine Does.fact fun hb => ?_
    refine (stop_does _ _ w .failed br s (fun c => by cases c)).post ?_
    rintro y h A ⟨o', e, a⟩
    exact ⟨o', e, w, a, hb⟩

/-- The transaction a call comes to, after the first bytes. -/
def parsedTx (v : ElectrumTx) (s : PStream) : Option Tx := if v.isSegwit = false ∧ s.avail = true then some (v.tx.fromStream s).1 else none

def spoilsOf : Option Tx → Bool
  | some t => t.spoils
  | none => false

def zerosOf : Option Tx → Nat
  | some t => t.zeroCounts
  | none => 0

theorem readTx_does (junk : Bytes) (fuel : Nat) (o : HElectrumTx) (v : ElectrumTx) (b : Bool) (br : Nat) (s : PStream) (hi : v.status = .incomplete) (inv : v.Inv b)
    {r : ElectrumTx × Nat × PStream} (hr : v.readTx junk fuel br s = some r) (hub : r.1.status ≠ .ub) :
    Does (ElectAt o (v, b)) (o.readTx junk fuel br s) (Post r fun o' => ElectAt o' (r.1, b || spoilsOf (parsedTx v s)) ⋆ LostLe (zerosOf (parsedTx v s))) := by
  refine Does.know (p := o.isSegwit = v.isSegwit ∧ o.tx.status = v.tx.status) (fun {h A} a => ?_) fun ⟨es, et⟩ => ?_
  · obtain ⟨u, a, -⟩ := a
    obtain ⟨⟨e, -⟩, _, _, a, -⟩ := fact_star.1 a
    exact ⟨by rw [e], by rw [a.1]⟩
  unfold readTx HM.ifElse
  unfold ElectrumTx.readTx at hr
  by_cases hc : v.isSegwit = false ∧ s.avail = true
  · obtain ⟨sd, nf, nm, rfl⟩ := inv.run hi hc.1
    have hp : parsedTx v s = some (v.tx.fromStream s).1 := if_pos hc
    rw [hp]
    rw [if_pos ⟨hc.1, hc.2, nf⟩] at hr
    rw [if_pos ⟨es.trans hc.1, hc.2, by rw [et]; exact nf⟩]
    have sd' := sd.parse s
    have hpd := HTx.parse_does o.tx v.tx sd s
    show Does _ _ (Post r fun o' => ElectAt o' (r.1, false || (v.tx.fromStream s).1.spoils) ⋆ LostLe (v.tx.fromStream s).1.zeroCounts)
    generalize hq : v.tx.fromStream s = q at *
    obtain ⟨t, n, s'⟩ := q
    dsimp only at hr sd' hpd ⊢
    by_cases hu : t.status = .ub
    · rw [if_pos hu] at hr
      injection hr with hr
      subst hr
      exact absurd rfl hub
    rw [if_neg hu] at hr
    rw [ElectAt.eq_whole]
    refine Does.fact fun ⟨e1, e2, e3⟩ => ?_
    have ep := e3 hi hc.1
    rw [BlockIf.neg (by simp [ep]), star_emp]
    refine (hpd hu).bind fun x => Does.fact fun hx => ?_
    obtain ⟨ot, x2⟩ := x
    dsimp only at hx ⊢
    subst hx
    dsimp only
    have pre : ∀ {h A}, CTxAt ot t h A → ElectAt { o with tx := ot } ({ v with tx := t }, false) h A := by
      intro h A a
      rw [ElectAt.eq_whole]
      refine fact_star.2 ⟨⟨?_, e2, e3⟩, ?_⟩
      · dsimp only
        rw [e1]
      · dsimp only
        rw [BlockIf.neg (by simp [ep]), star_emp]
        exact a
    have fin : ∀ {b : Bool} {x : HM (Option (HElectrumTx × Nat × PStream))}, Does (ElectAt { o with tx := ot } ({ v with tx := t }, false)) x (Post r (ElectAt · (r.1, b))) →
        Does (CTxAt ot t ⋆ LostLe t.zeroCounts) x (Post r fun o' => ElectAt o' (r.1, b) ⋆ LostLe t.zeroCounts) := by
      intro b x hx
      refine ((hx.pre pre).frame (CTxAt.stable _ _) (Stable.lostLe _)).post ?_
      rintro y h A ⟨A1, A2, ⟨o', e, a⟩, l, d, rfl⟩
      exact ⟨o', e, A1, A2, a, l, d, rfl⟩
    refine Does.know (p := ot.status = t.status) (fun ⟨_, _, a, _⟩ => (HTx.facts a).1) fun est => ?_
    rw [est]
    by_cases hd : t.status = .done
    · rw [if_pos hd] at hr ⊢
      cases hlm : ElectrumTx.legacyMetas junk t.txIns with
      | ub =>
        rw [hlm] at hr
        dsimp only at hr
        injection hr with hr
        subst hr
        exact absurd rfl hub
      | ok l =>
        obtain ⟨ins, ms, ok⟩ := l
        rw [hlm] at hr
        dsimp only at hr
        have hsp : t.spoils = false := by
          unfold Tx.spoils
          rw [decide_eq_false (by rw [hd]; simp)]
          rfl
        rw [hsp]
        exact fin (readLegacy_does junk fuel { o with tx := ot } { v with tx := t } (br + n) s' hi hc.1 hd (sd'.all hd) hlm hr)
    · rw [if_neg hd] at hr ⊢
      exact fin (afterTx_does junk fuel { o with tx := ot } { v with tx := t } false (br + n) s' (fun _ => ⟨rfl, hi, hc.1⟩) (fun c => by rw [hc.1] at c; cases c) hr)
  · have hp : parsedTx v s = none := if_neg hc
    rw [hp]
    rw [if_neg (fun c => hc ⟨c.1, c.2.1⟩)] at hr
    rw [if_neg (fun c => hc ⟨es.symm.trans c.1, c.2.1⟩)]
    show Does _ _ (Post r fun o' => ElectAt o' (r.1, b || false) ⋆ LostLe 0)
    rw [LostLe.zero_eq]
    simp only [star_emp, Bool.or_false]
    have nf : v.tx.status ≠ .failed := by
      cases hw : v.isSegwit with
      | false => exact (inv.run hi hw).2.1
      | true =>
        rw [(inv.seg hi hw).2]
        simp
    have := afterTx_does junk fuel o v b br s (fun c => absurd c nf) (fun c => (inv.seg hi c).1) hr
    have hsp : v.tx.spoils = false := by
      unfold Tx.spoils
      rw [decide_eq_false nf]
      rfl
    rw [hsp, Bool.or_false] at this
    exact this

end HElectrumTx

theorem CTxAt.null_inv {h : Heap} {A : Finset Nat} (a : CTxAt {} {} h A) : emp h A := by
  obtain ⟨u, ⟨-, eu, A1, A2, h1, h2, -, rfl⟩, -⟩ := a
  have : u = [] := by simpa using eu.symm
  subst this
  rcases h1.cases with ⟨-, -, rfl⟩ | ⟨c, -⟩
  · rcases h2.cases with ⟨-, -, rfl⟩ | ⟨c, -⟩
    · show ∅ ∪ ∅ = ∅
      simp
    · exact absurd rfl c
  · exact absurd rfl c

namespace HElectrumTx

/-- The old array of metadata goes, unless there are no inputs. -/
theorem dropMetas_does (o : HElectrumTx) (v : ElectrumTx) (hl : o.tx.txIns.length = v.tx.txIns.length) :
    Does (BlockIf (o.ptr ≠ 0) o.ptr) (if o.tx.txIns.length > 0 then HM.free o.ptr else pure ()) (fun _ => LostLe v.dropLoss) := by
  unfold ElectrumTx.dropLoss
  by_cases hc : o.tx.txIns.length > 0
  · rw [if_pos hc, if_neg (by intro c; rw [c] at hl; simp at hl; rw [hl] at hc; cases hc), LostLe.zero_eq]
    exact Does.freeNull
  · rw [if_neg hc, if_pos (by rw [← List.length_eq_zero_iff, ← hl]; omega)]
    refine Does.ret (Stable.blockIf _ _) fun {h A} a => ?_
    by_cases hp : o.ptr ≠ 0
    · rw [BlockIf.pos hp] at a
      exact a.lostLe
    · rw [BlockIf.neg hp] at a
      exact LostLe.mono (Nat.zero_le 1) (LostLe.zero.2 a)

theorem start_does (o : HElectrumTx) (v : ElectrumTx) (b : Bool) (hb : v.status = .done → b = false) (hs : v.status = .done ∨ v.status = .incomplete) :
    Does (ElectAt o (v, b)) o.start (fun o' => ElectAt o' (v.start, b) ⋆ LostLe (if v.status = .done then 2 + v.dropLoss else 0)) := by
  refine Does.know (p := o.status = v.status ∧ o.tx.txIns.length = v.tx.txIns.length) (fun {h A} a => ?_) fun ⟨es, el⟩ => ?_
  · obtain ⟨u, a, -⟩ := a
    obtain ⟨⟨e, -⟩, _, _, a, -⟩ := fact_star.1 a
    exact ⟨by rw [e], HTx.len_at a⟩
  unfold start HM.ifElse
  rw [es]
  by_cases hd : v.status = .done
  · rw [if_pos hd, if_pos hd]
    have := hb hd
    subst this
    rw [ElectAt.eq_whole]
    refine Does.fact fun _ => ?_
    refine Does.comm ?_
    refine (dropMetas_does o v el).step (Stable.blockIf _ _) (CTxAt.stable _ _) fun _ => ?_
    refine Does.comm ?_
    have h1 := (HTx.assign_does o.tx {} v.tx {} ⟨(fun i hi => by cases hi), (fun i hi => by cases hi)⟩).pre (P' := CTxAt o.tx v.tx) (fun {h A} a =>
      ⟨A, ∅, a, CTxAt.null rfl, by simp, by simp⟩)
    refine h1.step (CTxAt.stable _ _) (Stable.lostLe _) fun t => ?_
    have st2 : Stable ((CTxAt t ({} : Tx).copy ⋆ LostLe ({} : Tx).emptyArrays ⋆ CTxAt {} {}) ⋆ LostLe v.dropLoss) :=
      ((CTxAt.stable _ _).star ((Stable.lostLe _).star (CTxAt.stable _ _))).star (Stable.lostLe _)
    refine Does.ret st2 fun {h A} a => ?_
    have a2 : (CTxAt t {} ⋆ (LostLe 2 ⋆ LostLe v.dropLoss)) h A := by
      rw [← Star.assoc]
      refine star_mono (fun a => ?_) (fun a => a) a
      refine star_mono (fun a => a) (fun a => ?_) a
      have := star_mono (fun a => a) CTxAt.null_inv a
      rwa [star_emp] at this
    refine star_mono (fun {h A} a => ?_) LostLe.add a2
    have ev : v.start = { status := .incomplete } := by
      unfold ElectrumTx.start
      rw [if_pos hd]
    rw [ev, ElectAt.eq_whole]
    refine fact_star.2 ⟨⟨rfl, fun c => absurd rfl c, fun _ _ => rfl⟩, ?_⟩
    rw [BlockIf.neg (by simp), star_emp]
    exact a
  · rw [if_neg hd, if_neg hd, LostLe.zero_eq]
    refine Does.ret (ElectAt.stable _ _) fun {h A} a => ?_
    rw [star_emp]
    have hi := hs.resolve_left hd
    have ev : v.start = v := by
      unfold ElectrumTx.start
      rw [if_neg hd, ← hi]
    obtain ⟨u, a, hu⟩ := a
    obtain ⟨⟨e1, e2, e3⟩, a⟩ := fact_star.1 a
    rw [ev]
    refine ⟨u, fact_star.2 ⟨⟨?_, e2, e3⟩, a⟩, hu⟩
    dsimp only
    rw [e1, hi]

end HElectrumTx

theorem ElectrumTx.Inv.start {v : ElectrumTx} {b : Bool} (h : v.Inv b) (hb : v.status = .done → b = false) (hs : v.status = .done ∨ v.status = .incomplete) : v.start.Inv b := by
  unfold ElectrumTx.start
  by_cases hd : v.status = .done
  · rw [if_pos hd, hb hd]
    refine ⟨fun _ _ => ⟨Tx.Sound.null, by simp, rfl, rfl⟩, (fun _ c => by cases c), (fun c => by cases c)⟩
  · rw [if_neg hd]
    have hi := hs.resolve_left hd
    have : ({ v with status := .incomplete } : ElectrumTx) = v := by rw [← hi]
    dsimp only at this ⊢
    rw [this]
    exact h

theorem ElectrumTx.start_status (v : ElectrumTx) : v.start.status = .incomplete := rfl

namespace HElectrumTx

theorem fromStream_does (junk : Bytes) (fuel : Nat) (o : HElectrumTx) (v : ElectrumTx) (b : Bool) (s : PStream) (inv : v.Inv b) (hb : v.status = .done → b = false)
    {r : ElectrumTx × Nat × PStream} (hr : v.fromStream junk fuel s = some r) (hub : r.1.status ≠ .ub) :
    Does (ElectAt o (v, b)) (o.fromStream junk fuel s) (Post r fun o' => ElectAt o' (r.1, b || v.spoils s) ⋆ LostLe (v.parseLoss s)) := by
  refine Does.know (p := o.status = v.status) (fun {h A} a => ?_) fun es => ?_
  · obtain ⟨u, a, -⟩ := a
    obtain ⟨⟨e, -⟩, -⟩ := fact_star.1 a
    rw [e]
  unfold fromStream HM.ifElse
  unfold ElectrumTx.fromStream at hr
  rw [es]
  by_cases hc : v.status = .failed ∨ v.status = .ub
  · rw [if_pos hc] at hr ⊢
    injection hr with hr
    subst hr
    have h1 : v.parsed s = none := if_pos hc
    have h2 : v.spoils s = false := by unfold ElectrumTx.spoils; rw [h1]
    have h3 : v.parseLoss s = 0 := by
      unfold ElectrumTx.parseLoss
      rw [h1, if_neg (by rcases hc with c | c <;> rw [c] <;> simp)]
      rfl
    rw [h2, h3, LostLe.zero_eq]
    simp only [star_emp, Bool.or_false]
    exact Does.ret (ElectAt.stable _ _) fun a => ⟨o, rfl, a⟩
  · rw [if_neg hc] at hr ⊢
    have hs : v.status = .done ∨ v.status = .incomplete := by
      revert hc
      cases v.status <;> simp
    have inv' := inv.start hb hs
    refine (start_does o v b hb hs).bind fun o' => ?_
    refine Does.know (p := o'.bytesParsed = v.start.bytesParsed) (fun {h A} a => ?_) fun ebp => ?_
    · obtain ⟨_, _, ⟨u, a, -⟩, -⟩ := a
      obtain ⟨⟨e, -⟩, -⟩ := fact_star.1 a
      rw [e]
    have hpl : v.parseLoss s = (if v.status = .done then 2 + v.dropLoss else 0) + zerosOf (v.parsed s) := by
      unfold ElectrumTx.parseLoss zerosOf
      cases v.parsed s <;> rfl
    have hsp : v.spoils s = spoilsOf (v.parsed s) := by
      unfold ElectrumTx.spoils spoilsOf
      cases v.parsed s <;> rfl
    rw [hpl, hsp]
    generalize (if v.status = .done then 2 + v.dropLoss else 0) = L
    have hpa : v.parsed s = if (ElectrumTx.readMagic (ElectrumTx.magic.drop v.start.bytesParsed) s).1 = true then
        parsedTx v.start (ElectrumTx.readMagic (ElectrumTx.magic.drop v.start.bytesParsed) s).2.2 else none := by
      unfold ElectrumTx.parsed parsedTx
      rw [if_neg hc]
      dsimp only
      by_cases h1 : (ElectrumTx.readMagic (ElectrumTx.magic.drop v.start.bytesParsed) s).1 = true
      · rw [if_pos h1]
        by_cases h2 : v.start.isSegwit = false ∧ (ElectrumTx.readMagic (ElectrumTx.magic.drop v.start.bytesParsed) s).2.2.avail = true
        · rw [if_pos h2, if_pos ⟨h1, h2⟩]
        · rw [if_neg h2, if_neg (fun c => h2 c.2)]
      · rw [if_neg h1, if_neg (fun c => h1 c.1)]
    have hst := ElectrumTx.start_status v
    rw [hpa]
    dsimp only at hr ⊢
    rw [ebp]
    generalize ElectrumTx.readMagic (ElectrumTx.magic.drop v.start.bytesParsed) s = m at hr ⊢
    obtain ⟨ok, br, s'⟩ := m
    dsimp only at hr ⊢
    by_cases hok : ok = true
    · rw [if_pos hok] at hr ⊢
      rw [if_pos hok]
      refine ((readTx_does junk fuel o' v.start b br s' hst inv' hr hub).frame (ElectAt.stable _ _) (Stable.lostLe L)).post ?_
      rintro x h A ⟨A1, A2, ⟨o2, e, a⟩, l, d, rfl⟩
      refine ⟨o2, e, ?_⟩
      have : ((ElectAt o2 (r.1, b || spoilsOf (parsedTx v.start s')) ⋆ LostLe (zerosOf (parsedTx v.start s'))) ⋆ LostLe L) h (A1 ∪ A2) := ⟨A1, A2, a, l, d, rfl⟩
      rw [Star.assoc, Star.comm (LostLe _)] at this
      exact star_mono (fun a => a) LostLe.add this
    · rw [if_neg hok] at hr ⊢
      rw [if_neg hok]
      injection hr with hr
      subst hr
      show Does _ _ (Post _ fun o' => ElectAt o' (_, b || false) ⋆ LostLe (L + 0))
      rw [Bool.or_false, Nat.add_zero]
      have h1 : Does (ElectAt o' (v.start, b)) (pure (some (o'.stop .failed br s'))) (Post (v.start.stop .failed br s') (ElectAt · ((v.start.stop .failed br s').1, b))) := by
        refine Does.ret (ElectAt.stable _ _) fun {h A} a => ?_
        obtain ⟨u, a, hu⟩ := a
        obtain ⟨⟨e1, e2, e3⟩, a⟩ := fact_star.1 a
        refine ⟨_, rfl, u, fact_star.2 ⟨⟨?_, e2, fun c => by cases c⟩, a⟩, hu⟩
        show ({ o' with status := .failed, bytesParsed := o'.bytesParsed + br } : HElectrumTx) = _
        rw [e1]
        rfl
      refine (h1.frame (ElectAt.stable _ _) (Stable.lostLe L)).post ?_
      rintro x h A ⟨A1, A2, ⟨o2, e, a⟩, l, d, rfl⟩
      exact ⟨o2, e, A1, A2, a, l, d, rfl⟩

end HElectrumTx

/-! ### The invariant -/

namespace ElectrumTx

theorem readMetas_len (junk : Bytes) (fuel : Nat) : ∀ (first : Nat) (ms : List ElectrumMeta) (pos : Nat) (s : PStream) {r : List ElectrumMeta × Nat × PStream},
    readMetas junk fuel first ms pos s = some r → r.1.length = ms.length := by
  intro first ms
  induction ms generalizing first with
  | nil =>
    intro pos s r hr
    unfold readMetas at hr
    injection hr with hr
    rw [← hr]
  | cons m ms ih =>
    intro pos s r hr
    rw [readMetas] at hr
    cases h1 : readMeta junk fuel first m pos s with
    | none => rw [h1] at hr; cases hr
    | some q =>
      rw [h1] at hr
      replace hr : (readMetas junk fuel (first + 102) ms q.2.1 q.2.2 >>= fun x => some (q.1 :: x.1, x.2.1, x.2.2)) = some r := hr
      cases h2 : readMetas junk fuel (first + 102) ms q.2.1 q.2.2 with
      | none => rw [h2] at hr; cases hr
      | some q2 =>
        rw [h2] at hr
        injection hr with hr
        rw [← hr]
        simp [ih _ _ _ h2]

theorem legacyMetas_len (junk : Bytes) : ∀ (is : List TxIn) {r : List TxIn × List ElectrumMeta × Bool}, legacyMetas junk is = .ok r → r.2.1.length = r.1.length := by
  intro is
  induction is with
  | nil =>
    intro r hr
    injection hr with hr
    rw [← hr]
    rfl
  | cons i is ih =>
    intro r hr
    rw [legacyMetas] at hr
    obtain ⟨q, -, hr⟩ := C.ok_inv hr
    cases q with
    | none =>
      injection hr with hr
      rw [← hr]
      simp
    | some q =>
      obtain ⟨q2, h2, hr⟩ := C.ok_inv hr
      injection hr with hr
      rw [← hr]
      simp [ih h2]

theorem Inv.readSegwit {v : ElectrumTx} {b : Bool} (h : v.Inv b) (junk : Bytes) (fuel br : Nat) (s : PStream) (hm : v.isSegwit = true → v.metas.length = v.tx.txIns.length)
    {r : ElectrumTx × Nat × PStream} (hr : v.readSegwit junk fuel br s = some r) : r.1.Inv b := by
  unfold ElectrumTx.readSegwit at hr
  split at hr
  · rename_i hc
    have hm := hm hc.1
    dsimp only at hr
    cases hrm : readMetas junk fuel (6 + v.tx.length + 2 - 4) v.metas (v.bytesParsed + br) s with
    | none =>
      rw [hrm] at hr
      cases hr
    | some q =>
      have hl := readMetas_len junk fuel _ _ _ _ hrm
      obtain ⟨ms, pos, s'⟩ := q
      rw [hrm] at hr
      replace hr : (if ms.any (fun m => m.hd.key.status = .ub) then _ else _ : Option _) = some r := hr
      split at hr
      · injection hr with hr
        subst hr
        exact ⟨(fun c => by cases c), (fun c => by cases c), (fun c => by cases c)⟩
      · injection hr with hr
        subst hr
        refine ⟨fun _ c => ?_, fun _ _ => ⟨hl.trans hm, hc.2⟩, fun _ => hl.trans hm⟩
        rw [show _ = v.isSegwit from rfl, hc.1] at c
        cases c
  · injection hr with hr
    subst hr
    exact ⟨h.run, h.seg, h.done⟩

theorem Inv.failed (v : ElectrumTx) (b : Bool) (br : Nat) (s : PStream) : (v.stop .failed br s).1.Inv b :=
  ⟨(fun c => by cases c), (fun c => by cases c), (fun c => by cases c)⟩

theorem Inv.afterTx {v : ElectrumTx} {b b' : Bool} (h : v.tx.status ≠ .failed → v.Inv b') (junk : Bytes) (fuel br : Nat) (s : PStream)
    (hi : v.tx.status = .failed → v.status = .incomplete) (hs : v.tx.status ≠ .failed → b = b')
    (hm : v.isSegwit = true → v.metas.length = v.tx.txIns.length)
    {r : ElectrumTx × Nat × PStream} (hr : v.afterTx junk fuel br s = some r) : r.1.Inv b := by
  unfold ElectrumTx.afterTx at hr
  by_cases hc : v.tx.status = .failed
  · rw [if_pos hc] at hr
    split at hr
    · split at hr
      · refine Inv.readSegwit ?_ junk fuel br s (fun _ => by simp [segwitStart]) hr
        exact ⟨(fun _ c => by cases c), fun _ _ => ⟨by simp [segwitStart], rfl⟩, fun _ => by simp [segwitStart]⟩
      · injection hr with hr
        subst hr
        exact Inv.failed ..
    · injection hr with hr
      subst hr
      exact Inv.failed ..
  · rw [if_neg hc] at hr
    rw [hs hc]
    exact (h hc).readSegwit junk fuel br s hm hr

theorem Inv.readTx {v : ElectrumTx} {b : Bool} (h : v.Inv b) (hi : v.status = .incomplete) (junk : Bytes) (fuel br : Nat) (s : PStream)
    {r : ElectrumTx × Nat × PStream} (hr : v.readTx junk fuel br s = some r) (hub : r.1.status ≠ .ub) : r.1.Inv (b || HElectrumTx.spoilsOf (HElectrumTx.parsedTx v s)) := by
  unfold ElectrumTx.readTx at hr
  have hns : ∀ {t : Tx}, t.status ≠ .failed → t.spoils = false := fun {t} ht => by
    unfold Tx.spoils
    rw [decide_eq_false ht]
    rfl
  by_cases hc : v.isSegwit = false ∧ s.avail = true
  · obtain ⟨sd, nf, nm, rfl⟩ := h.run hi hc.1
    have hp : HElectrumTx.parsedTx v s = some (v.tx.fromStream s).1 := if_pos hc
    rw [hp]
    rw [if_pos ⟨hc.1, hc.2, nf⟩] at hr
    have sd' := sd.parse s
    show r.1.Inv (false || (v.tx.fromStream s).1.spoils)
    generalize v.tx.fromStream s = q at *
    obtain ⟨t, n, s'⟩ := q
    dsimp only at hr sd' ⊢
    by_cases hu : t.status = .ub
    · rw [if_pos hu] at hr
      injection hr with hr
      subst hr
      exact absurd rfl hub
    rw [if_neg hu] at hr
    have hw : ∀ c : v.isSegwit = true, False := fun c => by rw [hc.1] at c; cases c
    by_cases hd : t.status = .done
    · rw [if_pos hd] at hr
      cases hlm : legacyMetas junk t.txIns with
      | ub =>
        rw [hlm] at hr
        injection hr with hr
        subst hr
        exact absurd rfl hub
      | ok l =>
        have hl := legacyMetas_len junk _ hlm
        obtain ⟨ins, ms, ok⟩ := l
        rw [hlm] at hr
        dsimp only at hr hl
        rw [hns (by rw [hd]; simp)]
        split at hr
        · refine Inv.afterTx (v := { v with tx := { t with txIns := ins }, metas := ms, status := .done }) (b' := false) (fun _ => ?_) junk fuel (br + n) s' (fun c => ?_) (fun _ => rfl) (fun c => (hw c).elim) hr
          · exact ⟨(fun c => by cases c), (fun c => by cases c), fun _ => hl⟩
          · rw [show _ = t.status from rfl, hd] at c
            cases c
        · injection hr with hr
          subst hr
          exact Inv.failed ..
    · rw [if_neg hd] at hr
      refine Inv.afterTx (v := { v with tx := t }) (b' := false) (fun nf' => ?_) junk fuel (br + n) s' (fun _ => hi) (fun nf' => hns nf') (fun c => (hw c).elim) hr
      refine ⟨fun _ _ => ⟨sd', nf', nm, rfl⟩, (fun _ c => (hw c).elim), fun c => ?_⟩
      rw [show _ = v.status from rfl, hi] at c
      cases c
  · have hp : HElectrumTx.parsedTx v s = none := if_neg hc
    rw [hp]
    rw [if_neg (fun c => hc ⟨c.1, c.2.1⟩)] at hr
    show r.1.Inv (b || false)
    rw [Bool.or_false]
    exact Inv.afterTx (fun _ => h) junk fuel br s (fun _ => hi) (fun _ => rfl) (fun c => (h.seg hi c).1) hr

theorem Inv.fromStream {v : ElectrumTx} {b : Bool} (h : v.Inv b) (hb : v.status = .done → b = false) (junk : Bytes) (fuel : Nat) (s : PStream)
    {r : ElectrumTx × Nat × PStream} (hr : v.fromStream junk fuel s = some r) (hub : r.1.status ≠ .ub) : r.1.Inv (b || v.spoils s) := by
  unfold ElectrumTx.fromStream at hr
  unfold ElectrumTx.spoils ElectrumTx.parsed
  by_cases hc : v.status = .failed ∨ v.status = .ub
  · rw [if_pos hc] at hr ⊢
    injection hr with hr
    subst hr
    dsimp only
    rw [Bool.or_false]
    exact h
  · rw [if_neg hc] at hr ⊢
    have hs : v.status = .done ∨ v.status = .incomplete := by
      revert hc
      cases v.status <;> simp
    have h' := h.start hb hs
    dsimp only at hr ⊢
    generalize readMagic (magic.drop v.start.bytesParsed) s = m at hr ⊢
    obtain ⟨ok, br, s'⟩ := m
    dsimp only at hr ⊢
    by_cases hok : ok = true
    · rw [if_pos hok] at hr
      have := h'.readTx (start_status v) junk fuel br s' hr hub
      unfold HElectrumTx.parsedTx at this
      by_cases h2 : v.start.isSegwit = false ∧ s'.avail = true
      · rw [if_pos h2] at this
        rw [if_pos ⟨hok, h2⟩]
        exact this
      · rw [if_neg h2] at this
        rw [if_neg (fun c => h2 c.2)]
        exact this
    · rw [if_neg hok] at hr
      injection hr with hr
      subst hr
      exact Inv.failed ..

end ElectrumTx

/-! ### Copies and destruction -/

theorem HTx.assign_from (o oo : HTx) (v vo : Tx) (uo : List (TxIn × Bool)) (hd : vo.AllDone) :
    Does (CTxAt o v ⋆ TxAt oo vo uo) (HM.obj (o.assign oo)) (fun o' => CTxAt o' vo.copy ⋆ LostLe vo.emptyArrays ⋆ TxAt oo vo uo) := by
  rintro h A w g ⟨A1, A2, ⟨u, a, hu⟩, ao, d, rfl⟩
  obtain ⟨o', v', u', h', B, E, e, a', nd, st, dE, c, hg⟩ := HTx.assign_at w a ao hu (ao.fits hd) d.symm
  obtain ⟨e1, e2⟩ := hg g (ao.small w g hd)
  rw [e1] at a'
  have l2 := (TxAt.stable oo vo uo).live ao
  have dB := st.apart w l2 d.symm
  refine ⟨o', h', (B ∪ E) ∪ A2, e, ?_, st.frame w A2 (fun q hq hc => Finset.disjoint_left.1 d hc hq) l2⟩
  show (CTxAt o' vo.copy ⋆ LostLe vo.emptyArrays ⋆ TxAt oo vo uo) _ _
  rw [← Star.assoc]
  exact ⟨B ∪ E, A2, ⟨B, E, ⟨u', a', nd.2⟩, ⟨fun q hq => st.live q (Finset.mem_union_right _ hq), c.le⟩, dE, rfl⟩,
    (TxAt.stable oo vo uo).keep w st ((TxAt.stable _ _ _).live a) d.symm ao, dB.symm, rfl⟩

theorem ElectrumTx.Full.done {v : ElectrumTx} (h : v.Full) : v.tx.AllDone := ⟨h.2.2.1, h.2.2.2⟩

theorem ElectrumTx.takeMetas_full {v : ElectrumTx} (h : v.Full) : v.takeMetas = .ok (v.metas.take v.tx.txIns.length) := if_pos h.2.1

/-- The value of a copy. -/
def ElectrumTx.copied (v : ElectrumTx) (sw : Bool) : ElectrumTx :=
  { status := v.status, bytesParsed := v.bytesParsed, isSegwit := sw, tx := v.tx.copy, metas := v.metas.take v.tx.txIns.length }

theorem ElectrumTx.copy_full {v : ElectrumTx} (h : v.Full) : v.copy = .ok (v.copied false) := by
  unfold ElectrumTx.copy
  rw [ElectrumTx.takeMetas_full h]
  rfl

theorem ElectrumTx.assign_full {v : ElectrumTx} (w : ElectrumTx) (h : v.Full) : w.assign v = .ok (v.copied w.isSegwit) := by
  unfold ElectrumTx.assign
  rw [ElectrumTx.takeMetas_full h]
  rfl

theorem ElectrumTx.Inv.copied {v : ElectrumTx} (h : v.Full) (sw b : Bool) : (v.copied sw).Inv b := by
  refine ⟨fun c => absurd c h.1, fun c => absurd c h.1, fun _ => ?_⟩
  show (v.metas.take v.tx.txIns.length).length = v.tx.copy.txIns.length
  rw [List.length_take, (Tx.copy_counts _).1]
  exact min_eq_left h.2.1

namespace HElectrumTx

theorem takeMetas_does (self o : HElectrumTx) (w v : ElectrumTx) (b : Bool) (hf : v.Full) (he : self.isSegwit = w.isSegwit) :
    Does (CTxAt self.tx v.tx.copy ⋆ ElectAt o (v, b)) (self.takeMetas o) (fun o' => ElectAt o' (v.copied w.isSegwit, false) ⋆ ElectAt o (v, b)) := by
  have st := (CTxAt.stable self.tx v.tx.copy).star (ElectAt.stable o (v, b))
  refine Does.know (p := self.tx.txIns.length = v.tx.txIns.length ∧ o.Like v) (fun {h A} a => ?_) fun ⟨el, e1, e2, e3⟩ => ?_
  · obtain ⟨_, _, a, ⟨u, c, -⟩, -⟩ := a
    obtain ⟨f, -⟩ := fact_star.1 c
    exact ⟨by rw [(HTx.facts a).2.1, (Tx.copy_counts _).1], f⟩
  unfold takeMetas HM.ifElse
  refine Does.fromEmp ?_
  refine Does.newPos.step Stable.emp st fun p => ?_
  rw [Star.assoc]
  refine Does.fact fun hp => ?_
  refine (Does.access ((Stable.block p).star st) fun {h A} a hn => ?_).bind fun _ => ?_
  · obtain ⟨_, _, -, ⟨_, _, -, ⟨u, c, -⟩, -⟩, -⟩ := a
    obtain ⟨-, _, _, -, c, -⟩ := fact_star.1 c
    have : o.ptr ≠ 0 := by
      apply e2
      intro c
      have := hf.2.1
      rw [c, List.length_nil] at this
      omega
    rw [BlockIf.pos this] at c
    exact c.1
  have em : o.metas = v.metas := by rw [e1]
  have e5 : o.status = v.status := by rw [e1]
  have e6 : o.bytesParsed = v.bytesParsed := by rw [e1]
  rw [if_neg (by rw [em, el]; exact Nat.not_lt.2 hf.2.1), el, em, e5, e6]
  refine Does.ret ((Stable.block p).star st) fun {h A} a => ?_
  rw [← Star.assoc] at a
  refine star_mono (fun {h A} a => ?_) (fun a => a) a
  rw [ElectAt.eq_whole]
  refine fact_star.2 ⟨⟨?_, fun _ => hp, fun c => absurd c hf.1⟩, ?_⟩
  · dsimp only
    rw [he]
    rfl
  · dsimp only
    rw [BlockIf.pos hp, Star.comm]
    exact a

theorem copy_does (o : HElectrumTx) (v : ElectrumTx) (b : Bool) (hf : v.Full) :
    Does (ElectAt o (v, b)) o.copy (fun o' => ElectAt o' (v.copied false, false) ⋆ LostLe v.tx.emptyArrays ⋆ ElectAt o (v, b)) := by
  unfold copy
  refine Does.bind (Q := fun t => CTxAt t v.tx.copy ⋆ LostLe v.tx.emptyArrays ⋆ ElectAt o (v, b)) ?_ fun t => ?_
  · refine Does.ex fun u => ?_
    have e0 : (fun h A => ElectU o v u h A ∧ ((∃ i ∈ u, HTxIn.stale i) ↔ b = true)) = fact ((∃ i ∈ u, HTxIn.stale i) ↔ b = true) ⋆ ElectU o v u := by
      funext h A
      rw [fact_star, and_comm]
    show Does (fun h A => ElectU o v u h A ∧ ((∃ i ∈ u, HTxIn.stale i) ↔ b = true)) _ _
    rw [e0]
    refine Does.fact fun hb => ?_
    refine Does.fact fun hl => ?_
    have h1 := (HTx.assign_from {} o.tx {} v.tx u hf.done).pre (P' := TxAt o.tx v.tx u) (fun {h A} a => ⟨∅, A, CTxAt.null rfl, a, by simp, by simp⟩)
    refine (h1.frame (TxAt.stable _ _ _) (Stable.blockIf (o.ptr ≠ 0) o.ptr)).post fun {t h A} a => ?_
    rw [Star.assoc, Star.assoc] at a
    exact star_mono (fun a => a) (fun a => star_mono (fun a => a) (fun a => ⟨u, fact_star.2 ⟨hl, a⟩, hb⟩) a) a
  · refine Does.swap (P := (CTxAt t v.tx.copy ⋆ ElectAt o (v, b)) ⋆ LostLe v.tx.emptyArrays) ?_ (by ac_rfl)
    refine ((takeMetas_does { tx := t } o {} v b hf rfl).frame ((CTxAt.stable _ _).star (ElectAt.stable _ _)) (Stable.lostLe _)).post fun {t h A} a => ?_
    rw [Star.assoc, Star.comm (ElectAt o (v, b))] at a
    exact a

theorem assign_does (self o : HElectrumTx) (w v : ElectrumTx) (b : Bool) (hf : v.Full) :
    Does (ElectAt self (w, false) ⋆ ElectAt o (v, b)) (self.assign o)
      (fun o' => ElectAt o' (v.copied w.isSegwit, false) ⋆ LostLe (w.dropLoss + v.tx.emptyArrays) ⋆ ElectAt o (v, b)) := by
  rw [ElectAt.eq_whole, Star.assoc]
  refine Does.fact fun ⟨e1, e2, e3⟩ => ?_
  refine Does.know (p := self.tx.txIns.length = w.tx.txIns.length) (fun {h A} a => ?_) fun el => ?_
  · rw [Star.assoc] at a
    obtain ⟨_, _, a, -⟩ := a
    exact (HTx.facts a).2.1
  unfold assign HM.ifElse
  refine Does.swap (P := BlockIf (self.ptr ≠ 0) self.ptr ⋆ CTxAt self.tx w.tx ⋆ ElectAt o (v, b)) ?_ (by ac_rfl)
  refine (dropMetas_does self w el).step (Stable.blockIf _ _) ((CTxAt.stable _ _).star (ElectAt.stable _ _)) fun _ => ?_
  refine Does.bind (Q := fun t => CTxAt t v.tx.copy ⋆ (LostLe w.dropLoss ⋆ LostLe v.tx.emptyArrays) ⋆ ElectAt o (v, b)) ?_ fun t => ?_
  · have inner : Does (CTxAt self.tx w.tx ⋆ ElectAt o (v, b)) (HM.obj (self.tx.assign o.tx)) (fun t => CTxAt t v.tx.copy ⋆ LostLe v.tx.emptyArrays ⋆ ElectAt o (v, b)) := by
      refine Does.comm ?_
      refine Does.exStar fun u => ?_
      have e0 : (fun h A => ElectU o v u h A ∧ ((∃ i ∈ u, HTxIn.stale i) ↔ b = true)) = fact ((∃ i ∈ u, HTxIn.stale i) ↔ b = true) ⋆ ElectU o v u := by
        funext h A
        rw [fact_star, and_comm]
      show Does ((fun h A => ElectU o v u h A ∧ ((∃ i ∈ u, HTxIn.stale i) ↔ b = true)) ⋆ _) _ _
      rw [e0, Star.assoc]
      refine Does.fact fun hb => ?_
      unfold ElectU
      rw [Star.assoc]
      refine Does.fact fun hl => ?_
      refine Does.swap (P := (CTxAt self.tx w.tx ⋆ TxAt o.tx v.tx u) ⋆ BlockIf (o.ptr ≠ 0) o.ptr) ?_ (by ac_rfl)
      refine ((HTx.assign_from self.tx o.tx w.tx v.tx u hf.done).frame ((CTxAt.stable _ _).star (TxAt.stable _ _ _)) (Stable.blockIf (o.ptr ≠ 0) o.ptr)).post fun {t h A} a => ?_
      rw [Star.assoc, Star.assoc] at a
      exact star_mono (fun a => a) (fun a => star_mono (fun a => a) (fun a => ⟨u, fact_star.2 ⟨hl, a⟩, hb⟩) a) a
    refine Does.comm ?_
    refine (inner.frame ((CTxAt.stable _ _).star (ElectAt.stable _ _)) (Stable.lostLe w.dropLoss)).post fun {t h A} a => ?_
    have : (CTxAt t v.tx.copy ⋆ LostLe v.tx.emptyArrays ⋆ ElectAt o (v, b)) ⋆ LostLe w.dropLoss =
        CTxAt t v.tx.copy ⋆ (LostLe w.dropLoss ⋆ LostLe v.tx.emptyArrays) ⋆ ElectAt o (v, b) := by ac_rfl
    rw [← this]
    exact a
  · refine Does.swap (P := (CTxAt t v.tx.copy ⋆ ElectAt o (v, b)) ⋆ LostLe w.dropLoss ⋆ LostLe v.tx.emptyArrays) ?_ (by ac_rfl)
    refine ((takeMetas_does { self with tx := t } o w v b hf (by dsimp only; rw [e1])).frame ((CTxAt.stable _ _).star (ElectAt.stable _ _))
      ((Stable.lostLe _).star (Stable.lostLe _))).post fun {t h A} a => ?_
    rw [Star.assoc, Star.comm (ElectAt o (v, b))] at a
    exact star_mono (fun a => a) (fun a => star_mono LostLe.add (fun a => a) a) a

theorem destroy_does (o : HElectrumTx) (v : ElectrumTx) : Does (ElectAt o (v, false)) o.destroy (fun _ => emp) := by
  rw [ElectAt.eq_whole]
  refine Does.fact fun _ => ?_
  unfold destroy
  refine Does.comm ?_
  refine Does.freeNull.step (Stable.blockIf _ _) (CTxAt.stable _ _) fun _ => ?_
  rw [emp_star]
  exact HTx.destroy_does o.tx v.tx

/-! ### Spoiled objects -/

theorem destroy_ub {o : HElectrumTx} {v : ElectrumTx} {h : Heap} {A : Finset Nat} (w : h.Wf) (g : h.Generous) (a : ElectAt o (v, true) h A) : o.destroy h = .ub := by
  obtain ⟨u, a, hu⟩ := a
  obtain ⟨-, A1, A2, at1, c, d, rfl⟩ := fact_star.1 a
  obtain ⟨_, h', B, e, -, s⟩ := Does.freeNull h A2 w g c
  have a' := (TxAt.stable _ _ _).keep w s ((Stable.blockIf _ _).live c) d at1
  show (HM.free o.ptr h >>= fun r => HM.run o.tx.destroy r.2) = _
  rw [e, C.bind_ok]
  show (o.tx.destroy h' >>= fun x => _) = _
  rw [HTx.destroy_at_ub s.wf a' (hu.2 rfl)]
  rfl

theorem drop_ub {o : HElectrumTx} {v : ElectrumTx} {h : Heap} {A : Finset Nat} (w : h.Wf) (g : h.Generous) (a : ElectAt o (v, true) h A) (t : HTx) {α : Type} (f : HTx → HM α) :
    (do
      HM.ifElse (o.tx.txIns.length > 0) (HM.free o.ptr) (pure ())
      let t ← HM.obj (o.tx.assign t)
      f t : HM α) h = .ub := by
  obtain ⟨u, a, hu⟩ := a
  obtain ⟨-, A1, A2, at1, c, d, rfl⟩ := fact_star.1 a
  obtain ⟨_, h', B, e, -, s⟩ := dropMetas_does o v (HTx.len_at at1) h A2 w g c
  have a' := (TxAt.stable _ _ _).keep w s ((Stable.blockIf _ _).live c) d at1
  show (HM.ifElse (o.tx.txIns.length > 0) (HM.free o.ptr) (pure ()) h >>= fun r => (HM.obj (o.tx.assign t) >>= f) r.2) = _
  unfold HM.ifElse
  rw [e, C.bind_ok]
  show (o.tx.assign t h' >>= fun x => _) = _
  rw [HTx.assign_at_ub s.wf a' t (hu.2 rfl)]
  rfl

theorem assign_ub {self : HElectrumTx} {w : ElectrumTx} {h : Heap} {A : Finset Nat} (wf : h.Wf) (g : h.Generous) (a : ElectAt self (w, true) h A) (o : HElectrumTx) :
    self.assign o h = .ub := drop_ub wf g a o.tx fun t => takeMetas { self with tx := t } o

theorem fromStream_ub {o : HElectrumTx} {v : ElectrumTx} {h : Heap} {A : Finset Nat} (w : h.Wf) (g : h.Generous) (a : ElectAt o (v, true) h A) (hd : v.status = .done)
    (junk : Bytes) (fuel : Nat) (s : PStream) : o.fromStream junk fuel s h = .ub := by
  have es : o.status = .done := by
    obtain ⟨u, a, -⟩ := a
    obtain ⟨⟨e, -⟩, -⟩ := fact_star.1 a
    rw [e]
    exact hd
  have hs : o.start h = .ub := by
    unfold start
    rw [HM.ifElse, if_pos es]
    exact drop_ub w g a {} fun t => pure ({ status := .incomplete, bytesParsed := 0, isSegwit := false, tx := t, ptr := 0, metas := [] } : HElectrumTx)
  unfold fromStream
  rw [HM.ifElse, if_neg (by rw [es]; simp)]
  show (o.start h >>= fun r => _) = _
  rw [hs]
  rfl

/-- Reading an object. -/
theorem view_at {o : HElectrumTx} {v : ElectrumTx × Bool} {h : Heap} {A : Finset Nat} (w : h.Wf) (a : ElectAt o v h A) (hd : v.1.tx.AllDone)
    (hm : v.1.tx.txIns.length ≤ v.1.metas.length) : o.view h = .ok (viewElectrum v.1) := by
  obtain ⟨u, a, -⟩ := a
  obtain ⟨⟨e1, e2, e3⟩, A1, A2, at1, c, -, rfl⟩ := fact_star.1 a
  have el := HTx.len_at at1
  have em : o.metas = v.1.metas := by rw [e1]
  unfold view
  rw [HTx.load_at w at1 hd, C.bind_ok]
  have : h.access o.ptr o.tx.txIns.length = .ok () := by
    apply access_ok
    intro hn
    have hp : o.ptr ≠ 0 := by
      apply e2
      intro c
      rw [c, List.length_nil] at hm
      omega
    rw [BlockIf.pos hp] at c
    exact c.1
  rw [this, C.bind_ok, if_neg (by rw [em, el]; exact Nat.not_lt.2 hm), em]
  unfold viewElectrum
  rw [show o.status = v.1.status by rw [e1]]
  rfl

end HElectrumTx

end UB
