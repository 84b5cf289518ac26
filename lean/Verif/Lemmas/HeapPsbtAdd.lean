import Verif.Lemmas.HeapPsbtMeta

/-! One pair of a PSBT on the heap. -/

namespace UB
open Heap

namespace HInMeta

theorem setOut (o : HInMeta) (v : InMeta) (ot : HTxOut) (vt : TxOut) :
    InMetaAt { o with txOut := ot } { v with txOut := vt } =
      OutAt ot vt ⋆ ScriptAt o.redeemScript v.redeemScript ⋆ ScriptAt o.witnessScript v.witnessScript ⋆ InDynAt o v := by
  show (OutAt ot vt ⋆ ScriptAt o.redeemScript v.redeemScript ⋆ ScriptAt o.witnessScript v.witnessScript) ⋆ InDynAt o v = _
  ac_rfl

theorem splitOut (o : HInMeta) (v : InMeta) :
    InMetaAt o v = OutAt o.txOut v.txOut ⋆ ScriptAt o.redeemScript v.redeemScript ⋆ ScriptAt o.witnessScript v.witnessScript ⋆ InDynAt o v := setOut o v o.txOut v.txOut

theorem setRedeem (o : HInMeta) (v : InMeta) (os : HScript) (vs : Script) :
    InMetaAt { o with redeemScript := os } { v with redeemScript := vs } =
      ScriptAt os vs ⋆ OutAt o.txOut v.txOut ⋆ ScriptAt o.witnessScript v.witnessScript ⋆ InDynAt o v := by
  show (OutAt o.txOut v.txOut ⋆ ScriptAt os vs ⋆ ScriptAt o.witnessScript v.witnessScript) ⋆ InDynAt o v = _
  ac_rfl

theorem setWitness (o : HInMeta) (v : InMeta) (os : HScript) (vs : Script) :
    InMetaAt { o with witnessScript := os } { v with witnessScript := vs } =
      ScriptAt os vs ⋆ OutAt o.txOut v.txOut ⋆ ScriptAt o.redeemScript v.redeemScript ⋆ InDynAt o v := by
  show (OutAt o.txOut v.txOut ⋆ ScriptAt o.redeemScript v.redeemScript ⋆ ScriptAt os vs) ⋆ InDynAt o v = _
  ac_rfl

theorem setDers (o : HInMeta) (v : InMeta) (p : Nat) (os : List HDerivation) (vs : List Derivation) :
    InMetaAt { o with derPtr := p, ders := os } { v with derivations := vs } = DersAt p os vs ⋆ InMemAt o v ⋆ SigsAt o.sigPtr o.sigs v.signatures := by
  show InMemAt o v ⋆ DersAt p os vs ⋆ SigsAt o.sigPtr o.sigs v.signatures = _
  ac_rfl

theorem setSigs (o : HInMeta) (v : InMeta) (p : Nat) (os vs : List PartialSig) :
    InMetaAt { o with sigPtr := p, sigs := os } { v with signatures := vs } = SigsAt p os vs ⋆ InMemAt o v ⋆ DersAt o.derPtr o.ders v.derivations := by
  show InMemAt o v ⋆ DersAt o.derPtr o.ders v.derivations ⋆ SigsAt p os vs = _
  ac_rfl

/-- Nothing is changed or lost. -/
theorem same_does (o : HInMeta) (v v' : InMeta) (r r' : Int) (n : Nat) (e : (C.ok (r', v) : C (Int × InMeta)) = .ok (r, v')) :
    Does (InMetaAt o v) (pure (r', o)) (fun x : Int × HInMeta => fact (x.1 = r) ⋆ InMetaAt x.2 v' ⋆ LostLe n) := by
  injection e with e
  injection e with e1 e2
  subst e1 e2
  refine Does.ret (InMetaAt.stable _ _) (fun {h A} a => ?_)
  rw [fact_star]
  refine ⟨rfl, A, ∅, a, ⟨by simp, by simp⟩, by simp, by simp⟩

theorem addPrev_does (o : HInMeta) (v v' : InMeta) (i : HTxIn) (vi : TxIn) (va : Bytes) (r : Int) (hv : v.Whole) (h1 : i.hash = vi.hash)
    (h2 : i.outputIndex = vi.outputIndex)
    (e : (if (prevTx va).status = .ub then .ub
      else if (prevTx va).status ≠ .done then .ok (-2, v)
      else do
        let h ← (prevTx va).hash
        if h ≠ vi.hash then return (-3, v)
        else match (prevTx va).txOuts[vi.outputIndex.toNat]? with
          | none => return (-3, v)
          | some o => return (1, { v with txOut := v.txOut.assign o }) : C (Int × InMeta)) = .ok (r, v')) :
    Does (InMetaAt o v) (o.addPrev i va) (fun x => fact (x.1 = r) ⋆ InMetaAt x.2 v' ⋆ LostLe (prevTx va).zeroCounts) := by
  by_cases hub : (prevTx va).status = .ub
  · rw [if_pos hub] at e; cases e
  rw [if_neg hub] at e
  have hnull : Does emp (HM.parse (({} : HTx).fromStream { bytes := va.drop (dataPos va) }))
      (fun x => fact (x.2 = (({} : Tx).fromStream { bytes := va.drop (dataPos va) }).2) ⋆ CTxAt x.1 (prevTx va) ⋆ LostLe (prevTx va).zeroCounts) := by
    refine (HTx.parse_does {} {} Tx.Sound.null { bytes := va.drop (dataPos va) } hub).pre (fun {h A} a => ?_)
    rw [show A = ∅ from a]
    exact ⟨[], TxAt.null h, fun i hi => by cases hi⟩
  unfold addPrev
  have sm := InMetaAt.stable o v
  refine Does.fromEmp (hnull.step Stable.emp sm fun x => ?_)
  obtain ⟨t, n, s⟩ := x
  dsimp only
  rw [Star.assoc]
  refine Does.fact fun _ => ?_
  have st := CTxAt.stable t (prevTx va)
  have sl := Stable.lostLe (prevTx va).zeroCounts
  rw [Star.assoc]
  refine Does.know (p := t.status = (prevTx va).status ∧ t.txIns.length = (prevTx va).txIns.length ∧ t.txOuts.length = (prevTx va).txOuts.length)
    (fun {h A} a => by obtain ⟨A1, A2, a, -⟩ := a; exact HTx.facts a) fun hf => ?_
  rw [hf.1, if_neg hub]
  -- giving the temporary object back
  have fin : ∀ (c : Int) (m : HInMeta) (w : InMeta), Does (CTxAt t (prevTx va) ⋆ LostLe (prevTx va).zeroCounts ⋆ InMetaAt m w)
      (HM.run t.destroy >>= fun _ => pure (c, m)) (fun x => fact (x.1 = c) ⋆ InMetaAt x.2 w ⋆ LostLe (prevTx va).zeroCounts) := by
    intro c m w
    refine (HTx.destroy_does t _).step st (sl.star (InMetaAt.stable m w)) fun _ => ?_
    rw [emp_star]
    refine Does.ret (sl.star (InMetaAt.stable m w)) (fun h => ?_)
    rw [fact_true rfl, emp_star, Star.comm]
    exact h
  by_cases hd : (prevTx va).status ≠ .done
  · rw [if_pos hd] at e ⊢
    injection e with e
    injection e with e1 e2
    subst e1 e2
    exact fin _ _ _
  rw [if_neg hd] at e ⊢
  have hd' : (prevTx va).status = .done := not_not.1 hd
  have snd : (prevTx va).Sound := Tx.Sound.null.parse _
  have all := snd.all hd'
  obtain ⟨hh, eh, e⟩ := C.ok_inv e
  refine (Does.look st (a := prevTx va) (fun w a => ?_)).step st (sl.star sm) fun b => ?_
  · obtain ⟨u, a, -⟩ := a
    exact HTx.load_at w a all
  rw [Star.assoc]
  refine Does.fact fun eb => ?_
  subst eb
  refine Does.fromEmp ((Does.lift eh).step Stable.emp (st.star (sl.star sm)) fun b => ?_)
  refine Does.fact fun eb => ?_
  subst eb
  rw [h1]
  by_cases hne : b ≠ vi.hash
  · rw [if_pos hne] at e ⊢
    injection e with e
    injection e with e1 e2
    subst e1 e2
    exact fin _ _ _
  rw [if_neg hne] at e ⊢
  rw [h2]
  by_cases hk : vi.outputIndex.toNat < (prevTx va).txOuts.length
  · have hk' : vi.outputIndex.toNat < t.txOuts.length := by rw [hf.2.2]; exact hk
    rw [List.getElem?_eq_getElem hk] at e
    rw [List.getElem?_eq_getElem hk']
    dsimp only at e ⊢
    injection e with e
    injection e with e1 e2
    subst e1 e2
    refine (Does.access st (fun {h A} a hn => ?_)).step st (sl.star sm) fun _ => ?_
    · obtain ⟨u, ⟨-, -, A1, A2, -, a2, -⟩, -⟩ := a
      rcases a2.cases with ⟨c, -⟩ | ⟨-, -, -, -, hp, -⟩
      · rw [c] at hn; simp at hn
      · exact hp
    have so := OutAt.stable o.txOut v.txOut
    have s2 := ScriptAt.stable o.redeemScript v.redeemScript
    have s3 := ScriptAt.stable o.witnessScript v.witnessScript
    have sd := InDynAt.stable o v
    rw [splitOut]
    refine Does.swap (P := (OutAt o.txOut v.txOut ⋆ CTxAt t (prevTx va)) ⋆ LostLe (prevTx va).zeroCounts ⋆ ScriptAt o.redeemScript v.redeemScript ⋆
      ScriptAt o.witnessScript v.witnessScript ⋆ InDynAt o v) ?_ (by ac_rfl)
    refine (HTx.takeOut_does o.txOut v.txOut t (prevTx va) (List.getElem?_eq_getElem hk') (List.getElem?_eq_getElem hk) hv.spk
      (all.2 _ (List.getElem_mem hk))).step (so.star st) (sl.star (s2.star (s3.star sd))) fun o' => ?_
    refine (fin 1 { o with txOut := o' } { v with txOut := v.txOut.assign (prevTx va).txOuts[vi.outputIndex.toNat] }).swap ?_
    rw [setOut]
    ac_rfl
  · have hk' : ¬ vi.outputIndex.toNat < t.txOuts.length := by rw [hf.2.2]; exact hk
    rw [List.getElem?_eq_none (by omega)] at e
    rw [List.getElem?_eq_none (by omega)]
    dsimp only at e ⊢
    injection e with e
    injection e with e1 e2
    subst e1 e2
    exact fin _ _ _

theorem addSig_does (o : HInMeta) (v : InMeta) (g : PartialSig) (hl : v.signatures.length ≠ 255) :
    Does (InMetaAt o v) (o.addSig g) (fun m => InMetaAt m { v with signatures := v.signatures ++ [g] }) := by
  refine Does.know (p := o.sigs = v.signatures) (fun {h A} a => ?_) fun es => ?_
  · obtain ⟨_, _, _, ⟨_, _, _, b, _⟩, _⟩ := a
    exact (fact_star.1 b).1
  unfold addSig
  rw [es, if_neg hl]
  have ss := SigsAt.stable o.sigPtr o.sigs v.signatures
  have sm := InMemAt.stable o v
  have sd := DersAt.stable o.derPtr o.ders v.derivations
  have split : InMetaAt o v = SigsAt o.sigPtr o.sigs v.signatures ⋆ InMemAt o v ⋆ DersAt o.derPtr o.ders v.derivations := setSigs o v o.sigPtr o.sigs v.signatures
  by_cases h0 : v.signatures.length = 0
  · rw [if_pos h0]
    have hn := List.length_eq_zero_iff.1 h0
    refine Does.fromEmp (Does.new.step Stable.emp (InMetaAt.stable o v) fun q => ?_)
    refine Does.ret ((Stable.block q).star (InMetaAt.stable o v)) (fun {h A} a => ?_)
    rw [setSigs, hn]
    unfold SigsAt
    rw [fact_true (by rfl), emp_star, BlockIf.pos (by simp)]
    rw [split] at a
    unfold SigsAt at a
    rw [fact_true es, emp_star, BlockIf.neg (by simp [hn]), emp_star] at a
    exact a
  · rw [if_neg h0]
    have hn : v.signatures ≠ [] := fun c => h0 (by rw [c]; rfl)
    refine Does.fromEmp (Does.new.step Stable.emp (InMetaAt.stable o v) fun q => ?_)
    rw [split]
    refine Does.swap (P := SigsAt o.sigPtr o.sigs v.signatures ⋆ Block q ⋆ InMemAt o v ⋆ DersAt o.derPtr o.ders v.derivations) ?_ (by ac_rfl)
    have acc := SigsAt.access_does o.sigPtr o.sigs v.signatures
    rw [es] at acc ss ⊢
    refine acc.step ss ((Stable.block q).star (sm.star sd)) fun _ => ?_
    unfold SigsAt
    rw [fact_true rfl, emp_star, BlockIf.pos hn]
    refine Does.free.step (Stable.block _) ((Stable.block q).star (sm.star sd)) fun _ => ?_
    rw [emp_star]
    refine Does.ret ((Stable.block q).star (sm.star sd)) (fun {h A} a => ?_)
    rw [setSigs]
    unfold SigsAt
    rw [fact_true (by rfl), emp_star, BlockIf.pos (by simp)]
    exact a

theorem add_does (junk : Bytes) (o : HInMeta) (v v' : InMeta) (i : HTxIn) (vi : TxIn) (code : UInt8) (ka va : Bytes) (r : Int) (hv : v.Whole) (h1 : i.hash = vi.hash)
    (h2 : i.outputIndex = vi.outputIndex) (e : v.add junk vi code ka va = .ok (r, v')) :
    Does (InMetaAt o v) (o.add junk i code ka va) (fun x => fact (x.1 = r) ⋆ InMetaAt x.2 v' ⋆ LostLe (v.losses v' code ka va)) := by
  unfold InMeta.add at e
  unfold add
  have sm := InMetaAt.stable o v
  by_cases c0 : code = 0
  · rw [if_pos c0] at e ⊢
    by_cases hk : ka.length ≠ 2
    · rw [if_pos hk] at e ⊢
      exact same_does o v v' r _ _ e
    rw [if_neg hk] at e ⊢
    refine (addPrev_does o v v' i vi va r hv h1 h2 e).post (star_mono (fun h => h) (star_mono (fun h => h) (LostLe.mono ?_)))
    unfold InMeta.losses
    rw [if_pos ⟨c0, not_not.1 hk⟩]
    omega
  rw [if_neg c0] at e ⊢
  have s1 := OutAt.stable o.txOut v.txOut
  have s2 := ScriptAt.stable o.redeemScript v.redeemScript
  have s3 := ScriptAt.stable o.witnessScript v.witnessScript
  have sd := InDynAt.stable o v
  by_cases c1 : code = 1
  · rw [if_pos c1] at e ⊢
    by_cases hk : ka.length ≠ 2
    · rw [if_pos hk] at e ⊢
      exact same_does o v v' r _ _ e
    rw [if_neg hk] at e ⊢
    dsimp only at e
    by_cases hub : (v.txOut.fromStream { bytes := va.drop (dataPos va) }).1.status = .ub
    · rw [if_pos hub] at e; cases e
    rw [if_neg hub] at e
    rw [splitOut]
    refine (HTxOut.parse_does o.txOut v.txOut _ hub (fun _ => hv.spk)).step s1 (s2.star (s3.star sd)) fun x => ?_
    obtain ⟨ot, n, s⟩ := x
    dsimp only
    rw [Star.assoc]
    refine Does.fact fun _ => ?_
    refine Does.know (p := ot.status = (v.txOut.fromStream { bytes := va.drop (dataPos va) }).1.status) (fun {h A} a => ?_) fun hst => ?_
    · obtain ⟨A1, -, a, -⟩ := a
      rw [a.1]
    rw [hst, if_neg hub, ← setOut]
    exact same_does { o with txOut := ot } _ v' r _ _ e
  rw [if_neg c1] at e ⊢
  by_cases c2 : code = 2
  · rw [if_pos c2] at e ⊢
    by_cases hk : ka.length ≠ 35 ∧ ka.length ≠ 67
    · rw [if_pos hk] at e ⊢
      exact same_does o v v' r _ _ e
    rw [if_neg hk] at e ⊢
    dsimp only at e ⊢
    generalize (ECPoint.fromSec junk {} (ka.drop 2)).1 = pub at e ⊢
    generalize (({} : Sig).fromStream { bytes := va.drop 1 }).1 = sig at e ⊢
    by_cases k1 : pub.status = .ub
    · rw [if_pos k1] at e; cases e
    rw [if_neg k1] at e ⊢
    by_cases k2 : pub.status ≠ .done
    · rw [if_pos k2] at e ⊢
      exact same_does o v v' r _ _ e
    rw [if_neg k2] at e ⊢
    by_cases k3 : sig.status = .ub
    · rw [if_pos k3] at e; cases e
    rw [if_neg k3] at e ⊢
    by_cases k4 : sig.status ≠ .done
    · rw [if_pos k4] at e ⊢
      exact same_does o v v' r _ _ e
    rw [if_neg k4] at e ⊢
    by_cases k5 : v.signatures.length = 255
    · rw [if_pos k5] at e; cases e
    rw [if_neg k5] at e
    refine (addSig_does o v ⟨pub, sig⟩ k5).bind fun m => ?_
    exact same_does m _ v' r _ _ e
  rw [if_neg c2] at e ⊢
  by_cases c4 : code = 4
  · rw [if_pos c4] at e ⊢
    by_cases hk : ka.length ≠ 2
    · rw [if_pos hk] at e ⊢
      exact same_does o v v' r _ _ e
    rw [if_neg hk] at e ⊢
    dsimp only at e
    by_cases hub : (v.redeemScript.fromStream { bytes := va }).1.status = .ub
    · rw [if_pos hub] at e; cases e
    rw [if_neg hub] at e
    rw [show InMetaAt o v = _ from setRedeem o v o.redeemScript v.redeemScript]
    refine (HScript.parse_does o.redeemScript v.redeemScript _ hub).step s2 (s1.star (s3.star sd)) fun x => ?_
    obtain ⟨ot, n, s⟩ := x
    dsimp only
    rw [Star.assoc]
    refine Does.fact fun _ => ?_
    refine Does.know (p := ot.status = (v.redeemScript.fromStream { bytes := va }).1.status) (fun {h A} a => ?_) fun hst => ?_
    · obtain ⟨A1, -, a, -⟩ := a
      rw [a.1]
      rfl
    rw [hst, if_neg hub, ← setRedeem]
    exact same_does { o with redeemScript := ot } _ v' r _ _ e
  rw [if_neg c4] at e ⊢
  by_cases c5 : code = 5
  · rw [if_pos c5] at e ⊢
    by_cases hk : ka.length ≠ 2
    · rw [if_pos hk] at e ⊢
      exact same_does o v v' r _ _ e
    rw [if_neg hk] at e ⊢
    dsimp only at e
    by_cases hub : (v.witnessScript.fromStream { bytes := va }).1.status = .ub
    · rw [if_pos hub] at e; cases e
    rw [if_neg hub] at e
    rw [show InMetaAt o v = _ from setWitness o v o.witnessScript v.witnessScript]
    refine (HScript.parse_does o.witnessScript v.witnessScript _ hub).step s3 (s1.star (s2.star sd)) fun x => ?_
    obtain ⟨ot, n, s⟩ := x
    dsimp only
    rw [Star.assoc]
    refine Does.fact fun _ => ?_
    refine Does.know (p := ot.status = (v.witnessScript.fromStream { bytes := va }).1.status) (fun {h A} a => ?_) fun hst => ?_
    · obtain ⟨A1, -, a, -⟩ := a
      rw [a.1]
      rfl
    rw [hst, if_neg hub, ← setWitness]
    exact same_does { o with witnessScript := ot } _ v' r _ _ e
  rw [if_neg c5] at e ⊢
  by_cases c6 : code = 6
  · rw [if_pos c6] at e ⊢
    obtain ⟨⟨r', ds⟩, ed, e⟩ := C.ok_inv e
    injection e with e
    injection e with e1 e2
    subst e1 e2
    rw [show InMetaAt o v = _ from setDers o v o.derPtr o.ders v.derivations]
    have sd := DersAt.stable o.derPtr o.ders v.derivations
    have sr := (InMemAt.stable o v).star (SigsAt.stable o.sigPtr o.sigs v.signatures)
    refine (HDerivation.add_does junk o.derPtr o.ders v.derivations ds ka va r' ed).step sd sr fun x => ?_
    obtain ⟨r2, p, os⟩ := x
    dsimp only
    rw [Star.assoc]
    refine Does.fact fun er => ?_
    subst er
    have se := DersAt.stable p os ds
    have sl := Stable.lostLe (Derivation.added v.derivations ds)
    refine Does.ret ((se.star sl).star sr) (fun {h A} a => ?_)
    rw [fact_true rfl, emp_star]
    show (InMetaAt { o with derPtr := p, ders := os } { v with derivations := ds } ⋆ _) _ _
    rw [setDers]
    have e3 : (DersAt p os ds ⋆ LostLe (Derivation.added v.derivations ds)) ⋆ InMemAt o v ⋆ SigsAt o.sigPtr o.sigs v.signatures =
        (DersAt p os ds ⋆ InMemAt o v ⋆ SigsAt o.sigPtr o.sigs v.signatures) ⋆ LostLe (Derivation.added v.derivations ds) := by ac_rfl
    rw [e3] at a
    refine star_mono (fun h => h) (LostLe.mono ?_) a
    unfold InMeta.losses
    dsimp only
    omega
  rw [if_neg c6] at e ⊢
  exact same_does o v v' r _ _ e

end HInMeta

/-! ### Metadata of an output -/

def OutMemAt (o : HOutMeta) (v : OutMeta) : HProp := ScriptAt o.redeemScript v.redeemScript ⋆ ScriptAt o.witnessScript v.witnessScript

def OutDynAt (o : HOutMeta) (v : OutMeta) : HProp := DersAt o.derPtr o.ders v.derivations

def OutMetaAt (o : HOutMeta) (v : OutMeta) : HProp := OutMemAt o v ⋆ OutDynAt o v

theorem OutMemAt.stable (o : HOutMeta) (v : OutMeta) : Stable (OutMemAt o v) := (ScriptAt.stable _ _).star (ScriptAt.stable _ _)

theorem OutDynAt.stable (o : HOutMeta) (v : OutMeta) : Stable (OutDynAt o v) := DersAt.stable _ _ _

theorem OutMetaAt.stable (o : HOutMeta) (v : OutMeta) : Stable (OutMetaAt o v) := (OutMemAt.stable o v).star (OutDynAt.stable o v)

structure OutMeta.Whole (v : OutMeta) : Prop where
  redeem : v.redeemScript.Settled
  witness : v.witnessScript.Settled

theorem OutMeta.Whole.null : ({} : OutMeta).Whole := ⟨Or.inl ⟨rfl, fun _ => rfl⟩, Or.inl ⟨rfl, fun _ => rfl⟩⟩

def OutMeta.fresh (v : OutMeta) : OutMeta :=
  { v with redeemScript := ({} : Script).assign v.redeemScript, witnessScript := ({} : Script).assign v.witnessScript }

namespace HOutMeta

theorem destroy_at {h : Heap} {o : HOutMeta} {v : OutMeta} {A : Finset Nat} (w : h.Wf) (a : OutMemAt o v h A) : ∃ h', o.destroy h = .ok h' ∧ Step h h' A ∅ := by
  obtain ⟨A2, A3, a2, a3, d2, rfl⟩ := a
  have l2 := (ScriptAt.stable _ _).live a2
  have l3 := (ScriptAt.stable _ _).live a3
  obtain ⟨h1, e1, s1⟩ := HScript.destroy_at w a3
  have a2' := (ScriptAt.stable _ _).keep w s1 l3 d2 a2
  obtain ⟨h2, e2, s2⟩ := HScript.destroy_at s1.wf a2'
  refine ⟨h2, ?_, ?_⟩
  · unfold destroy
    rw [e1, C.bind_ok, e2]
  · have s := s1.gone2 s2 w l2 d2.symm
    rwa [Finset.union_comm] at s

theorem release_does (o : HOutMeta) (v : OutMeta) (hr : Derivation.AllReady v.derivations) : Does (OutDynAt o v) o.release (fun _ => emp) :=
  HDerivation.freeAll_does _ _ _ hr

theorem copy_does (o : HOutMeta) (v : OutMeta) (hv : v.Whole ∧ Derivation.AllReady v.derivations) :
    Does (OutMetaAt o v) (copy o) (fun m => OutMetaAt m v.fresh ⋆ LostLe (Derivation.hollows v.derivations) ⋆ OutMetaAt o v) := by
  unfold copy
  have s1 := ScriptAt.stable o.redeemScript v.redeemScript
  have s2 := ScriptAt.stable o.witnessScript v.witnessScript
  have sd := DersAt.stable o.derPtr o.ders v.derivations
  refine Does.swap (P := ScriptAt o.redeemScript v.redeemScript ⋆ ScriptAt o.witnessScript v.witnessScript ⋆ DersAt o.derPtr o.ders v.derivations) ?_ (Star.assoc _ _ _)
  refine (HScript.fresh_does _ _ hv.1.redeem).step s1 (s2.star sd) fun r => ?_
  have t1 := ScriptAt.stable r (({} : Script).assign v.redeemScript)
  refine Does.swap (P := ScriptAt o.witnessScript v.witnessScript ⋆ DersAt o.derPtr o.ders v.derivations ⋆ ScriptAt r (({} : Script).assign v.redeemScript) ⋆
    ScriptAt o.redeemScript v.redeemScript) ?_ (by ac_rfl)
  refine (HScript.fresh_does _ _ hv.1.witness).step s2 (sd.star (t1.star s1)) fun w => ?_
  have t2 := ScriptAt.stable w (({} : Script).assign v.witnessScript)
  refine Does.swap (P := DersAt o.derPtr o.ders v.derivations ⋆ ScriptAt w (({} : Script).assign v.witnessScript) ⋆ ScriptAt o.witnessScript v.witnessScript ⋆
    ScriptAt r (({} : Script).assign v.redeemScript) ⋆ ScriptAt o.redeemScript v.redeemScript) ?_ (by ac_rfl)
  refine (HDerivation.copyAll_does _ _ _ hv.2).step sd (t2.star (s2.star (t1.star s1))) fun x => ?_
  obtain ⟨p, ds⟩ := x
  dsimp only
  refine Does.ret (((DersAt.stable p ds v.derivations).star ((Stable.lostLe _).star sd)).star (t2.star (s2.star (t1.star s1)))) (fun {h A} a => ?_)
  show (((ScriptAt r (({} : Script).assign v.redeemScript) ⋆ ScriptAt w (({} : Script).assign v.witnessScript)) ⋆ DersAt p ds v.derivations) ⋆
    LostLe (Derivation.hollows v.derivations) ⋆ ((ScriptAt o.redeemScript v.redeemScript ⋆ ScriptAt o.witnessScript v.witnessScript) ⋆ DersAt o.derPtr o.ders v.derivations)) _ _
  have e : ((ScriptAt r (({} : Script).assign v.redeemScript) ⋆ ScriptAt w (({} : Script).assign v.witnessScript)) ⋆ DersAt p ds v.derivations) ⋆
    LostLe (Derivation.hollows v.derivations) ⋆ ((ScriptAt o.redeemScript v.redeemScript ⋆ ScriptAt o.witnessScript v.witnessScript) ⋆ DersAt o.derPtr o.ders v.derivations) =
    (DersAt p ds v.derivations ⋆ LostLe (Derivation.hollows v.derivations) ⋆ DersAt o.derPtr o.ders v.derivations) ⋆
      ScriptAt w (({} : Script).assign v.witnessScript) ⋆ ScriptAt o.witnessScript v.witnessScript ⋆
      ScriptAt r (({} : Script).assign v.redeemScript) ⋆ ScriptAt o.redeemScript v.redeemScript := by ac_rfl
  rw [e]
  exact a

theorem setRedeem (o : HOutMeta) (v : OutMeta) (os : HScript) (vs : Script) :
    OutMetaAt { o with redeemScript := os } { v with redeemScript := vs } = ScriptAt os vs ⋆ ScriptAt o.witnessScript v.witnessScript ⋆ OutDynAt o v := by
  show (ScriptAt os vs ⋆ ScriptAt o.witnessScript v.witnessScript) ⋆ OutDynAt o v = _
  ac_rfl

theorem setWitness (o : HOutMeta) (v : OutMeta) (os : HScript) (vs : Script) :
    OutMetaAt { o with witnessScript := os } { v with witnessScript := vs } = ScriptAt os vs ⋆ ScriptAt o.redeemScript v.redeemScript ⋆ OutDynAt o v := by
  show (ScriptAt o.redeemScript v.redeemScript ⋆ ScriptAt os vs) ⋆ OutDynAt o v = _
  ac_rfl

theorem setDers (o : HOutMeta) (v : OutMeta) (p : Nat) (os : List HDerivation) (vs : List Derivation) :
    OutMetaAt { o with derPtr := p, ders := os } { v with derivations := vs } = DersAt p os vs ⋆ OutMemAt o v := Star.comm _ _

theorem same_does (o : HOutMeta) (v v' : OutMeta) (r r' : Int) (b : Bool) (n : Nat) (e : (C.ok (r', v) : C (Int × OutMeta)) = .ok (r, v')) :
    Does (OutMetaAt o v) (pure (b, r', o)) (fun x : Bool × Int × HOutMeta => fact (x.1 = b ∧ x.2.1 = r) ⋆ OutMetaAt x.2.2 v' ⋆ LostLe n) := by
  injection e with e
  injection e with e1 e2
  subst e1 e2
  refine Does.ret (OutMetaAt.stable _ _) (fun {h A} a => ?_)
  rw [fact_star]
  refine ⟨⟨rfl, rfl⟩, A, ∅, a, ⟨by simp, by simp⟩, by simp, by simp⟩

theorem add_does (junk : Bytes) (o : HOutMeta) (v v' : OutMeta) (code : UInt8) (ka va : Bytes) (r : Int) (e : v.add junk code ka va = .ok (r, v')) :
    Does (OutMetaAt o v) (o.add junk code ka va)
      (fun x => fact (x.1 = frees code ka ∧ x.2.1 = r) ⋆ OutMetaAt x.2.2 v' ⋆ LostLe (Derivation.added v.derivations v'.derivations)) := by
  unfold OutMeta.add at e
  unfold add
  have sm := OutMetaAt.stable o v
  have s2 := ScriptAt.stable o.redeemScript v.redeemScript
  have s3 := ScriptAt.stable o.witnessScript v.witnessScript
  have sd := OutDynAt.stable o v
  by_cases c0 : code = 0
  · rw [if_pos c0] at e ⊢
    by_cases hk : ka.length ≠ 2
    · rw [if_pos hk] at e ⊢
      rw [show frees code ka = false by unfold frees; simp [c0, hk]]
      exact same_does o v v' r _ _ _ e
    rw [if_neg hk] at e ⊢
    rw [show frees code ka = true by unfold frees; simp [not_not.1 hk]]
    dsimp only at e
    by_cases hub : (v.redeemScript.fromStream { bytes := va }).1.status = .ub
    · rw [if_pos hub] at e; cases e
    rw [if_neg hub] at e
    rw [show OutMetaAt o v = _ from setRedeem o v o.redeemScript v.redeemScript]
    refine (HScript.parse_does o.redeemScript v.redeemScript _ hub).step s2 (s3.star sd) fun x => ?_
    obtain ⟨ot, n, s⟩ := x
    dsimp only
    rw [Star.assoc]
    refine Does.fact fun _ => ?_
    refine Does.know (p := ot.status = (v.redeemScript.fromStream { bytes := va }).1.status) (fun {h A} a => ?_) fun hst => ?_
    · obtain ⟨A1, -, a, -⟩ := a
      rw [a.1]
      rfl
    rw [hst, if_neg hub, ← setRedeem]
    exact same_does { o with redeemScript := ot } _ v' r _ _ _ e
  rw [if_neg c0] at e ⊢
  by_cases c1 : code = 1
  · rw [if_pos c1] at e ⊢
    by_cases hk : ka.length ≠ 2
    · rw [if_pos hk] at e ⊢
      rw [show frees code ka = false by unfold frees; simp [c1, hk]]
      exact same_does o v v' r _ _ _ e
    rw [if_neg hk] at e ⊢
    rw [show frees code ka = true by unfold frees; simp [not_not.1 hk]]
    dsimp only at e
    by_cases hub : (v.witnessScript.fromStream { bytes := va }).1.status = .ub
    · rw [if_pos hub] at e; cases e
    rw [if_neg hub] at e
    rw [show OutMetaAt o v = _ from setWitness o v o.witnessScript v.witnessScript]
    refine (HScript.parse_does o.witnessScript v.witnessScript _ hub).step s3 (s2.star sd) fun x => ?_
    obtain ⟨ot, n, s⟩ := x
    dsimp only
    rw [Star.assoc]
    refine Does.fact fun _ => ?_
    refine Does.know (p := ot.status = (v.witnessScript.fromStream { bytes := va }).1.status) (fun {h A} a => ?_) fun hst => ?_
    · obtain ⟨A1, -, a, -⟩ := a
      rw [a.1]
      rfl
    rw [hst, if_neg hub, ← setWitness]
    exact same_does { o with witnessScript := ot } _ v' r _ _ _ e
  rw [if_neg c1] at e ⊢
  have hfr : frees code ka = true := by unfold frees; simp [c0, c1]
  rw [hfr]
  by_cases c2 : code = 2
  · rw [if_pos c2] at e ⊢
    obtain ⟨⟨r', ds⟩, ed, e⟩ := C.ok_inv e
    injection e with e
    injection e with e1 e2
    subst e1 e2
    rw [show OutMetaAt o v = _ from setDers o v o.derPtr o.ders v.derivations]
    have sd := DersAt.stable o.derPtr o.ders v.derivations
    have sr := OutMemAt.stable o v
    refine (HDerivation.add_does junk o.derPtr o.ders v.derivations ds ka va r' ed).step sd sr fun x => ?_
    obtain ⟨r2, p, os⟩ := x
    dsimp only
    rw [Star.assoc]
    refine Does.fact fun er => ?_
    subst er
    have se := DersAt.stable p os ds
    have sl := Stable.lostLe (Derivation.added v.derivations ds)
    refine Does.ret ((se.star sl).star sr) (fun {h A} a => ?_)
    rw [fact_true ⟨rfl, rfl⟩, emp_star]
    show (OutMetaAt { o with derPtr := p, ders := os } { v with derivations := ds } ⋆ _) _ _
    rw [setDers]
    have e3 : (DersAt p os ds ⋆ LostLe (Derivation.added v.derivations ds)) ⋆ OutMemAt o v =
        (DersAt p os ds ⋆ OutMemAt o v) ⋆ LostLe (Derivation.added v.derivations ds) := by ac_rfl
    rw [e3] at a
    exact a
  rw [if_neg c2] at e ⊢
  exact same_does o v v' r _ _ _ e

end HOutMeta

end UB
