import Verif.Lemmas.HeapPsbtParse

/-! `PSBT::from_stream` on the heap. -/

namespace UB
open Heap Spec

/-! ### The loop over the pairs -/

namespace PSBT

theorem roundAdd_goes {p : PSBT} {junk : Bytes} {br : Nat} {s : PStream} (h : (p.roundAdd junk br s).2 = false) : (p.roundAdd junk br s).1.1.status = p.status := by
  unfold roundAdd at h ⊢
  split at h
  · cases h
  · rename_i h1
    rw [if_neg h1]
    split at h
    · rename_i h2
      rw [if_pos h2]
      revert h
      cases e : p.add junk p.sec p.key p.value with
      | ub => intro h; cases h
      | ok x =>
        obtain ⟨r, q⟩ := x
        intro h
        dsimp only at h ⊢
        split at h
        · cases h
        · rename_i h3
          rw [if_neg h3]
          show q.status = _
          rw [(add_shape e).1]
    · rename_i h2
      rw [if_neg h2]

theorem roundRetry_goes {p : PSBT} {junk : Bytes} {br : Nat} {s : PStream} (h : (p.roundRetry junk br s).2 = false) : (p.roundRetry junk br s).1.1.status = p.status := by
  unfold roundRetry at h ⊢
  split at h
  · cases h
  · rename_i h1
    rw [if_neg h1]
    split at h
    · cases h
    · rename_i h2
      rw [if_neg h2]
      have e1 : (if p.key.status = .incomplete then p.parseKey br s else (p, br, s)).1.status = p.status := by split <;> rfl
      generalize (if p.key.status = .incomplete then p.parseKey br s else (p, br, s)) = z at h e1 ⊢
      obtain ⟨p1, n1, s1⟩ := z
      dsimp only at h e1 ⊢
      have e2 : (if p1.value.status = .incomplete then p1.parseValue n1 s1 else (p1, n1, s1)).1.status = p1.status := by split <;> rfl
      generalize (if p1.value.status = .incomplete then p1.parseValue n1 s1 else (p1, n1, s1)) = z at h e2 ⊢
      obtain ⟨p2, n2, s2⟩ := z
      dsimp only at h e2 ⊢
      rw [roundAdd_goes h, e2, e1]

theorem round_goes {p : PSBT} {junk : Bytes} {br : Nat} {s : PStream} (h : (p.round junk br s).2 = false) : (p.round junk br s).1.1.status = p.status := by
  unfold round at h ⊢
  have e1 : (if p.key.status = .done ∧ p.value.status = .done then p.parseKey br s else (p, br, s)).1.status = p.status := by split <;> rfl
  generalize (if p.key.status = .done ∧ p.value.status = .done then p.parseKey br s else (p, br, s)) = z at h e1 ⊢
  obtain ⟨p1, n1, s1⟩ := z
  dsimp only at h e1 ⊢
  split at h
  · rename_i h1
    rw [if_pos h1]
    exact e1
  · rename_i h1
    rw [if_neg h1]
    have e2 : (if p1.key.status = .done then p1.parseValue n1 s1 else (p1, n1, s1)).1.status = p1.status := by split <;> rfl
    generalize (if p1.key.status = .done then p1.parseValue n1 s1 else (p1, n1, s1)) = z at h e2 ⊢
    obtain ⟨p2, n2, s2⟩ := z
    dsimp only at h e2 ⊢
    rw [roundRetry_goes h, e2, e1]

theorem byte_lt {a b : UInt8} (h : a < b) : a ≠ b := by
  rintro rfl
  exact absurd h (by simp)

end PSBT

namespace HPSBT

/-- What parsing leaves behind. -/
def ParsePost (r : PSBT × Nat × PStream) (n : Nat) (x : HPSBT × Nat × PStream) : HProp := fact (x.2 = r.2 ∧ r.1.Inv) ⋆ PsbtAt x.1 r.1 ⋆ LostLe n

theorem finishAll_does (o : HPSBT) (v : PSBT) (br : Nat) (s : PStream) (hl : v.Live s) :
    Does (PsbtAt o v) (o.finishAll br s) (ParsePost (v.finishAll br s) 0) := by
  refine Does.know same fun hs => ?_
  have hi := hl.finish br
  unfold finishAll
  unfold PSBT.finishAll at hi ⊢
  by_cases hc : v.sec = v.sections ∧ v.sections > 0
  · rw [if_pos hc] at hi ⊢
    rw [if_pos (by rw [hs.sec, hs.sections]; exact hc)]
    obtain ⟨dk, dv⟩ := hl.last hc.1 hc.2
    have sk := ScriptAt.stable o.key v.key
    have sv := ScriptAt.stable o.value v.value
    have sc := PsbtCore.stable o v
    refine (assign_empty_does o.key v.key dk).step sk (sv.star sc) fun k => ?_
    have sk' := ScriptAt.stable k (v.key.assign {})
    refine Does.swap (P := ScriptAt o.value v.value ⋆ (ScriptAt k (v.key.assign {}) ⋆ PsbtCore o v)) ?_ (by ac_rfl)
    refine (assign_empty_does o.value v.value dv).step sv (sk'.star sc) fun w => ?_
    have sw' := ScriptAt.stable w (v.value.assign {})
    refine Does.ret (sw'.star (sk'.star sc)) (fun {h A} a => fact_star.2 ⟨⟨rfl, hi⟩, lostNone ?_⟩)
    rw [Star.left_comm] at a
    exact finish_at (o := { o with key := k, value := w }) (v := { v with key := v.key.assign {}, value := v.value.assign {} }) a _ _ _
  · rw [if_neg hc] at hi ⊢
    rw [if_neg (by rw [hs.sec, hs.sections]; exact hc), hs.status]
    exact Does.ret (PsbtAt.stable _ _) (fun {h A} a => fact_star.2 ⟨⟨rfl, hi⟩, lostNone (finish_at a _ _ _)⟩)

theorem loop_does (junk : Nat → Bytes) : ∀ (fuel : Nat) (o : HPSBT) (v : PSBT) (br : Nat) (s : PStream), v.Live s → (PSBT.loop junk fuel v br s).1.status ≠ .ub →
    Does (PsbtAt o v) (loop junk fuel o br s) (ParsePost (PSBT.loop junk fuel v br s) (PSBT.loopLoss junk fuel v br s)) := by
  intro fuel
  induction fuel with
  | zero => intro o v br s hl _; exact finishAll_does o v br s hl
  | succ fuel ih =>
    intro o v br s hl hub
    refine Does.know same fun hs => ?_
    rw [loop, PSBT.loopLoss]
    rw [PSBT.loop] at hub ⊢
    rw [hs.sec, hs.sections]
    by_cases hc : s.avail ∧ v.sec < v.sections
    · rw [if_pos hc] at hub
      rw [if_pos hc, if_pos hc, if_pos hc, hs.pos]
      have hr := round_does o v (junk v.lastKeyPos) br s hl hc.1 (PSBT.byte_lt hc.2)
      have hg := PSBT.round_goes (p := v) (junk := junk v.lastKeyPos) (br := br) (s := s)
      generalize v.round (junk v.lastKeyPos) br s = z at hub hr hg ⊢
      obtain ⟨⟨v1, n1, s1⟩, b⟩ := z
      cases b with
      | true =>
        dsimp only at hub hr ⊢
        refine (hr hub).bind fun x => ?_
        obtain ⟨⟨o1, n1', s1'⟩, b'⟩ := x
        refine Does.fact fun ⟨e1, e2, hn⟩ => ?_
        dsimp only at e1 e2 ⊢
        subst e2
        rw [if_pos rfl]
        exact Does.ret ((PsbtAt.stable _ _).star (Stable.lostLe _)) (fun {h A} a => fact_star.2 ⟨⟨e1, hn⟩, a⟩)
      | false =>
        dsimp only at hub hr hg ⊢
        have h1 : v1.status ≠ .ub := by rw [hg rfl, hl.status]; simp
        refine (hr h1).bind fun x => ?_
        obtain ⟨⟨o1, n1', s1'⟩, b'⟩ := x
        refine Does.fact fun ⟨e1, e2, hn⟩ => ?_
        dsimp only at e1 e2 ⊢
        subst e2
        obtain ⟨rfl, rfl⟩ := Prod.mk.inj e1
        rw [if_neg (by simp)]
        have hn' : v1.Live s1' := hn
        refine ((ih o1 v1 n1' s1' hn' hub).frame (PsbtAt.stable _ _) (Stable.lostLe _)).post (fun {x h A} a => ?_)
        unfold ParsePost at a ⊢
        rw [Star.assoc, Star.assoc] at a
        refine star_mono (fun h => h) (star_mono (fun h => h) (fun l => ?_)) a
        rw [Star.comm] at l
        exact LostLe.add l
    · rw [if_neg hc, if_neg hc, if_neg hc]
      exact finishAll_does o v br s hl

/-! ### The transaction -/

theorem EachAt.fresh {α β : Type} {P : α → β → HProp} {o : α} {v : β} (hp : ∀ {h A}, emp h A → P o v h A) : ∀ (n : Nat) {h : Heap} {A : Finset Nat}, emp h A →
    EachAt P (List.replicate n o) (List.replicate n v) h A
  | 0, _, _, a => a
  | n + 1, h, A, a => by
    rw [List.replicate_succ, List.replicate_succ]
    rw [← emp_star emp] at a
    exact star_mono hp (EachAt.fresh hp n) a

theorem inMeta_null {h : Heap} {A : Finset Nat} (a : emp h A) : InMetaAt {} {} h A := by
  have e : emp = (emp ⋆ emp ⋆ emp) ⋆ (emp ⋆ fact True ⋆ emp) := by
    rw [fact_true trivial]
    simp only [emp_star]
  rw [e] at a
  refine star_mono (star_mono (fun {h A} a => ?_) (star_mono ScriptAt.nullEmp ScriptAt.nullEmp)) (star_mono (fun {h A} a => ?_) (fun {h A} a => ?_)) a
  · rw [show A = ∅ from a]
    exact OutAt.null h
  · show DersAt 0 [] [] h A
    rw [DersAt.null]
    exact a
  · show (fact (([] : List PartialSig) = []) ⋆ BlockIf (([] : List PartialSig) ≠ []) 0) h A
    rw [fact_true rfl, BlockIf.neg (by simp)]
    rw [fact_true trivial] at a
    exact a

theorem outMeta_null {h : Heap} {A : Finset Nat} (a : emp h A) : OutMetaAt {} {} h A := by
  have e : emp = (emp ⋆ emp) ⋆ emp := by simp only [emp_star]
  rw [e] at a
  refine star_mono (star_mono ScriptAt.nullEmp ScriptAt.nullEmp) (fun {h A} a => ?_) a
  show DersAt 0 [] [] h A
  rw [DersAt.null]
  exact a

end HPSBT

namespace PSBT

theorem length_pos (sc : Script) : 0 < sc.length := by
  unfold Script.length
  have := HWitness.lenVarIntN_pos sc.scriptLen
  omega

/-- After the first pair: failure, or the state at the head of the loop. -/
theorem readTx_next {p q : PSBT} (e : p.readTx = .ok q) (ht : p.tx.Sound) (hk : p.key.status = .done) (hv : p.value.status = .done) (hs : p.status = .incomplete)
    (hp : p.lastKeyPos = 5) (hn : p.ins = [] ∧ p.outs = []) (s : PStream) (br : Nat) :
    (q.status = .failed ∧ (q.finish .failed br s).1.Inv) ∨ (q.status ≠ .failed ∧ q.Live s) := by
  unfold readTx at e
  obtain ⟨ka, -, e⟩ := C.ok_inv e
  split at e
  · cases e
    refine Or.inl ⟨rfl, ?_⟩
    exact {
      tx := ht
      fill := Or.inr hn
      key := Script.Within.of_ne (by show p.key.status ≠ _; rw [hk]; simp)
      value := Script.Within.of_ne (by show p.value.status ≠ _; rw [hv]; simp)
      done := fun c => by cases c
      run := fun c => by cases c
      early := fun c => by cases c }
  · obtain ⟨va, -, e⟩ := C.ok_inv e
    dsimp only at e
    have hs' := ht.parse { bytes := va.drop (dataPos va) }
    generalize (p.tx.fromStream { bytes := va.drop (dataPos va) }).1 = t at e hs'
    split at e
    · cases e
    · split at e
      · cases e
        refine Or.inl ⟨rfl, ?_⟩
        exact {
          tx := hs'
          fill := Or.inr hn
          key := Script.Within.of_ne (by show p.key.status ≠ _; rw [hk]; simp)
          value := Script.Within.of_ne (by show p.value.status ≠ _; rw [hv]; simp)
          done := fun c => by cases c
          run := fun c => by cases c
          early := fun c => by cases c }
      · rename_i hd
        cases e
        refine Or.inr ⟨by show p.status ≠ _; rw [hs]; simp, ?_⟩
        exact {
          status := hs
          pos := by
            show 5 < p.lastKeyPos + _
            have := length_pos p.key
            omega
          rich := {
            ins := by simp
            outs := by simp
            inReady := fun m hm => by rw [List.eq_of_mem_replicate hm]; intro d hd; cases hd
            outReady := fun m hm => by rw [List.eq_of_mem_replicate hm]; intro d hd; cases hd
            tx := hs'
            txDone := by simpa using hd
            inWhole := fun m hm => by rw [List.eq_of_mem_replicate hm]; exact InMeta.Whole.null
            outWhole := fun m hm => by rw [List.eq_of_mem_replicate hm]; exact OutMeta.Whole.null }
          key := Script.Within.of_ne (by show p.key.status ≠ _; rw [hk]; simp)
          value := Script.Within.of_ne (by show p.value.status ≠ _; rw [hv]; simp)
          avail := fun _ => ⟨hk, hv⟩
          last := fun _ _ => ⟨hk, hv⟩ }

end PSBT

namespace HPSBT

theorem newMetas_does (o : HPSBT) (v : PSBT) (hn : v.ins = [] ∧ v.outs = []) :
    Does (PsbtAt o v) o.newMetas (fun x => PsbtAt x { v with
      ins := List.replicate v.tx.txIns.length {}, outs := List.replicate v.tx.txOuts.length {}, lastKeyPos := v.lastKeyPos + (v.key.length + v.value.length) } ⋆
      LostLe ((if v.tx.txIns = [] then 1 else 0) + (if v.tx.txOuts = [] then 1 else 0))) := by
  refine Does.know same fun hs => ?_
  refine Does.know (fun ⟨_, _, _, ⟨_, _, _, ⟨_, _, _, ⟨_, _, c, _⟩, _⟩, _⟩, _⟩ => HTx.facts c) fun ht => ?_
  unfold newMetas
  have sa := PsbtAt.stable o v
  refine Does.fromEmp (Does.new.step Stable.emp sa fun p => ?_)
  have sp := Stable.block p
  refine Does.fromEmp (Does.new.step Stable.emp (sp.star sa) fun q => ?_)
  have sq := Stable.block q
  refine Does.ret (sq.star (sp.star sa)) (fun {h A} a => ?_)
  unfold PsbtAt PsbtCore at a
  rw [hn.1, hn.2, show MetaArr InMetaAt o.insPtr o.ins [] = emp from rfl, show MetaArr OutMetaAt o.outsPtr o.outs [] = emp from rfl] at a
  have e : ∀ (q p K V F T : HProp), q ⋆ p ⋆ K ⋆ V ⋆ F ⋆ T ⋆ emp ⋆ emp = F ⋆ ((p ⋆ emp) ⋆ (q ⋆ emp) ⋆ K ⋆ V ⋆ T) := by
    intros
    simp only [star_emp]
    ac_rfl
  rw [e, fact_star] at a
  have b := star_mono (star_mono (fun h => h) (EachAt.fresh inMeta_null o.tx.txIns.length)) (star_mono (star_mono (fun h => h) (EachAt.fresh outMeta_null o.tx.txOuts.length)) (fun h => h)) a.2
  have c := star_mono MetaArr.make (star_mono MetaArr.make (fun h => h)) b
  unfold PsbtAt PsbtCore
  dsimp only
  rw [fact_true ⟨a.1.1, a.1.2.1, a.1.2.2.1, by rw [hs.pos, hs.keyLen, hs.valueLen]⟩, emp_star]
  rw [ht.2.1, ht.2.2] at c
  simp only [List.replicate_eq_nil_iff, List.length_eq_zero_iff] at c
  rw [ht.2.1, ht.2.2]
  have e' : ∀ (I l1 O l2 K V T : HProp), (I ⋆ l1) ⋆ (O ⋆ l2) ⋆ K ⋆ V ⋆ T = (K ⋆ V ⋆ T ⋆ I ⋆ O) ⋆ (l1 ⋆ l2) := by
    intros
    ac_rfl
  rw [e'] at c
  exact star_mono (fun h => h) LostLe.add c

theorem readTx_does (o : HPSBT) (v q : PSBT) (e : v.readTx = .ok q) (ht : v.tx.Sound) (hk : v.key.status = .done) (hv : v.value.status = .done) (hn : v.ins = [] ∧ v.outs = []) :
    Does (PsbtAt o v) o.readTx (fun x => PsbtAt x q ⋆ LostLe v.readTxLoss) := by
  have sk := ScriptAt.stable o.key v.key
  have sv := ScriptAt.stable o.value v.value
  have sc := PsbtCore.stable o v
  refine Does.know same fun hs => ?_
  unfold readTx PSBT.readTxLoss
  unfold PSBT.readTx at e
  obtain ⟨ka, eka, e⟩ := C.ok_inv e
  refine Does.fromEmp (Does.new.step Stable.emp (sk.star (sv.star sc)) fun arr => ?_)
  have s1 := Stable.block arr
  refine Does.swap (P := ScriptAt o.key v.key ⋆ (Block arr ⋆ ScriptAt o.value v.value ⋆ PsbtCore o v)) ?_ (by unfold PsbtAt; ac_rfl)
  refine (Does.look sk (fun wf a => HScript.load_at wf a hk)).step sk (s1.star (sv.star sc)) fun kv => ?_
  rw [Star.assoc]
  refine Does.fact fun ek => ?_
  rw [ek]
  refine Does.fromEmp ((Does.lift eka).step Stable.emp (sk.star (s1.star (sv.star sc))) fun ka' => Does.fact fun ek' => ?_)
  rw [ek', eka]
  refine Does.swap (P := Block arr ⋆ (ScriptAt o.key v.key ⋆ ScriptAt o.value v.value ⋆ PsbtCore o v)) ?_ (by ac_rfl)
  refine Does.free.step s1 (sk.star (sv.star sc)) fun _ => ?_
  rw [emp_star]
  by_cases h1 : ka ≠ [1, 0]
  · rw [if_pos h1] at e ⊢
    cases e
    rw [if_neg (by simpa using h1)]
    refine Does.ret (sk.star (sv.star sc)) (fun {h A} a => lostNone ?_)
    have b := scalars (o := o) (v := v) a .failed v.bytesParsed v.sec v.lastKeyPos
    rw [show ({ o with status := .failed } : HPSBT) = { o with status := .failed, bytesParsed := v.bytesParsed, sec := v.sec, lastKeyPos := v.lastKeyPos } from by
      rw [← hs.bytes, ← hs.sec, ← hs.pos]]
    exact b
  rw [if_neg h1] at e ⊢
  obtain ⟨va, eva, e⟩ := C.ok_inv e
  rw [if_pos (by rw [not_ne_iff.1 h1])]
  have eg : v.globalTx = (v.tx.fromStream { bytes := va.drop (dataPos va) }).1 := by
    unfold PSBT.globalTx
    rw [eva]
  rw [eg]
  refine Does.fromEmp (Does.new.step Stable.emp (sk.star (sv.star sc)) fun arr2 => ?_)
  have s2 := Stable.block arr2
  refine Does.swap (P := ScriptAt o.value v.value ⋆ (Block arr2 ⋆ ScriptAt o.key v.key ⋆ PsbtCore o v)) ?_ (by ac_rfl)
  refine (Does.look sv (fun wf a => HScript.load_at wf a hv)).step sv (s2.star (sk.star sc)) fun vv => ?_
  rw [Star.assoc]
  refine Does.fact fun ev => ?_
  rw [ev]
  refine Does.fromEmp ((Does.lift eva).step Stable.emp (sv.star (s2.star (sk.star sc))) fun va' => Does.fact fun ev' => ?_)
  rw [ev']
  dsimp only at e
  have hub : (v.tx.fromStream { bytes := va.drop (dataPos va) }).1.status ≠ .ub := by
    intro c
    rw [if_pos c] at e
    cases e
  rw [if_neg hub] at e
  have dt := HTx.parse_does o.tx v.tx ht { bytes := va.drop (dataPos va) } hub
  generalize v.tx.fromStream { bytes := va.drop (dataPos va) } = z at e dt hub ⊢
  obtain ⟨t, n, s'⟩ := z
  dsimp only at e dt hub ⊢
  have sctx := CTxAt.stable o.tx v.tx
  have ti := MetaArr.stable InMetaAt.stable o.insPtr o.ins v.ins
  have tt := MetaArr.stable OutMetaAt.stable o.outsPtr o.outs v.outs
  unfold PsbtCore
  refine Does.swap (P := fact (o.status = v.status ∧ o.bytesParsed = v.bytesParsed ∧ o.sec = v.sec ∧ o.lastKeyPos = v.lastKeyPos) ⋆
    (CTxAt o.tx v.tx ⋆ (Block arr2 ⋆ ScriptAt o.key v.key ⋆ ScriptAt o.value v.value ⋆ MetaArr InMetaAt o.insPtr o.ins v.ins ⋆ MetaArr OutMetaAt o.outsPtr o.outs v.outs))) ?_ (by ac_rfl)
  refine Does.fact fun ef => ?_
  refine dt.step sctx (s2.star (sk.star (sv.star (ti.star tt)))) fun x => ?_
  rw [Star.assoc]
  refine Does.fact fun _ => ?_
  obtain ⟨t', n', s''⟩ := x
  dsimp only
  have st' := CTxAt.stable t' t
  have sl := Stable.lostLe t.zeroCounts
  refine Does.swap (P := Block arr2 ⋆ ((ScriptAt o.key v.key ⋆ ScriptAt o.value v.value ⋆ CTxAt t' t ⋆ MetaArr InMetaAt o.insPtr o.ins v.ins ⋆ MetaArr OutMetaAt o.outsPtr o.outs v.outs) ⋆
    LostLe t.zeroCounts)) ?_ (by ac_rfl)
  refine Does.free.step s2 ((sk.star (sv.star (st'.star (ti.star tt)))).star sl) fun _ => ?_
  rw [emp_star]
  refine Does.know (fun ⟨_, _, ⟨_, _, _, ⟨_, _, _, ⟨_, _, c, _⟩, _⟩, _⟩, _⟩ => HTx.facts c) fun hf => ?_
  rw [hf.1, if_neg hub]
  have eq : ∀ (st : Status), ScriptAt o.key v.key ⋆ ScriptAt o.value v.value ⋆ CTxAt t' t ⋆ MetaArr InMetaAt o.insPtr o.ins v.ins ⋆ MetaArr OutMetaAt o.outsPtr o.outs v.outs =
      PsbtAt { o with status := st, tx := t' } { v with status := st, tx := t } := by
    intro st
    unfold PsbtAt PsbtCore
    rw [fact_true ⟨rfl, ef.2⟩, emp_star]
  by_cases hd : t.status ≠ .done
  · rw [if_pos hd] at e ⊢
    cases e
    rw [if_neg hd]
    refine Does.ret ((sk.star (sv.star (st'.star (ti.star tt)))).star sl) (fun {h A} a => ?_)
    rw [eq .failed] at a
    exact a
  · rw [if_neg hd] at e ⊢
    cases e
    rw [if_pos (not_ne_iff.1 hd), eq v.status]
    have eo : ({ o with tx := t' } : HPSBT) = { o with status := v.status, tx := t' } := by rw [← ef.1]
    rw [eo]
    refine ((newMetas_does _ { v with status := v.status, tx := t } hn).frame (PsbtAt.stable _ _) sl).post (fun {x h A} a => ?_)
    rw [Star.assoc] at a
    refine star_mono (fun h => h) (fun l => ?_) a
    rw [Star.comm] at l
    exact LostLe.add l

end HPSBT

/-! ### `from_stream` -/

namespace PSBT

theorem Inv.setKey {p : PSBT} (h : p.Inv) {k : Script} (hk : k.Within) : ({ p with key := k }).Inv where
  tx := h.tx
  fill := h.fill
  key := hk
  value := h.value
  done := fun c => (h.done c).of rfl rfl rfl
  run := fun c d => ⟨(h.run c d).1.of rfl rfl rfl, (h.run c d).2⟩
  early := h.early

theorem Inv.setValue {p : PSBT} (h : p.Inv) {k : Script} (hk : k.Within) : ({ p with value := k }).Inv where
  tx := h.tx
  fill := h.fill
  key := h.key
  value := hk
  done := fun c => (h.done c).of rfl rfl rfl
  run := fun c d => ⟨(h.run c d).1.of rfl rfl rfl, (h.run c d).2⟩
  early := h.early

theorem Inv.fails {p : PSBT} (h : p.Inv) (br : Nat) (s : PStream) : (p.finish .failed br s).1.Inv where
  tx := h.tx
  fill := h.fill
  key := h.key
  value := h.value
  done := fun c => by cases c
  run := fun c => by cases c
  early := fun c => by cases c

theorem Inv.moves {p : PSBT} (h : p.Inv) (br : Nat) (s : PStream) : (p.finish p.status br s).1.Inv where
  tx := h.tx
  fill := h.fill
  key := h.key
  value := h.value
  done := fun c => (h.done c).of rfl rfl rfl
  run := fun c d => ⟨(h.run c d).1.of rfl rfl rfl, (h.run c d).2⟩
  early := h.early

theorem Sound.of_done {t : Tx} (h : t.AllDone) (hs : t.status = .done) : t.Sound :=
  ⟨⟨⟨fun i hi _ => h.1 i hi, fun i hi _ => h.2 i hi⟩, fun _ => h⟩, fun c => (by rw [hs] at c; cases c), Or.inl hs⟩

theorem Inv.start {p : PSBT} (h : p.Inv) (hs : p.status = .done ∨ p.status = .incomplete) : p.start.Inv ∧ p.start.status = .incomplete := by
  refine ⟨?_, rfl⟩
  unfold PSBT.start
  by_cases hd : p.status = .done
  · rw [if_pos hd]
    have hr := h.done hd
    exact {
      tx := Sound.of_done (hr.tx.all hr.txDone) rfl
      fill := Or.inr ⟨rfl, rfl⟩
      key := h.key
      value := h.value
      done := fun c => by cases c
      run := fun _ c => absurd c (by simp)
      early := fun _ _ => ⟨rfl, rfl⟩ }
  · rw [if_neg hd]
    have hi := hs.resolve_left hd
    have : ({ p with status := .incomplete } : PSBT) = p := by rw [← hi]
    rw [this]
    exact h

end PSBT

namespace HPSBT

theorem start_does (o : HPSBT) (v : PSBT) (hi : v.Inv) (hr : v.status = .done → v.release = .ok ()) : Does (PsbtAt o v) o.start (fun x => PsbtAt x v.start) := by
  refine Does.know same fun hs => ?_
  unfold start PSBT.start
  rw [hs.status]
  by_cases hd : v.status = .done
  · rw [if_pos hd, if_pos hd]
    have sk := ScriptAt.stable o.key v.key
    have sv := ScriptAt.stable o.value v.value
    have sctx := CTxAt.stable o.tx v.tx
    have ti := MetaArr.stable InMetaAt.stable o.insPtr o.ins v.ins
    have tt := MetaArr.stable OutMetaAt.stable o.outsPtr o.outs v.outs
    unfold PsbtAt PsbtCore
    refine Does.swap (P := fact (o.status = v.status ∧ o.bytesParsed = v.bytesParsed ∧ o.sec = v.sec ∧ o.lastKeyPos = v.lastKeyPos) ⋆
      (CTxAt o.tx v.tx ⋆ MetaArr InMetaAt o.insPtr o.ins v.ins ⋆ MetaArr OutMetaAt o.outsPtr o.outs v.outs) ⋆ (ScriptAt o.key v.key ⋆ ScriptAt o.value v.value)) ?_ (by ac_rfl)
    refine Does.fact fun ef => ?_
    refine (release_does o v hi.fill (hr hd)).step (sctx.star (ti.star tt)) (sk.star sv) fun _ => ?_
    refine Does.ret (sctx.star (sk.star sv)) (fun {h A} a => ?_)
    rw [fact_true ⟨rfl, rfl, rfl, rfl⟩, emp_star]
    show (ScriptAt o.key v.key ⋆ ScriptAt o.value v.value ⋆ CTxAt { o.tx with status := .done, bytesParsed := 0 } { v.tx with status := .done, bytesParsed := 0 } ⋆ emp ⋆ emp) h A
    simp only [star_emp]
    have e : CTxAt o.tx v.tx ⋆ ScriptAt o.key v.key ⋆ ScriptAt o.value v.value = ScriptAt o.key v.key ⋆ ScriptAt o.value v.value ⋆ CTxAt o.tx v.tx := by ac_rfl
    rw [e] at a
    refine star_mono (fun h => h) (star_mono (fun h => h) (fun {h A} c => ?_)) a
    obtain ⟨u, a, hu⟩ := c
    have b := a.scalars .done 0 v.tx.segwitFlag v.tx.version v.tx.locktime
    have eo := a.1
    refine ⟨u, ?_, hu⟩
    have : ({ o.tx with status := .done, bytesParsed := 0 } : HTx) =
        { o.tx with status := .done, bytesParsed := 0, segwitFlag := v.tx.segwitFlag, version := v.tx.version, locktime := v.tx.locktime } := by
      conv_lhs => rw [eo]
    rw [this]
    exact b
  · rw [if_neg hd, if_neg hd]
    refine Does.ret (PsbtAt.stable _ _) (fun {h A} a => ?_)
    have b := scalars a .incomplete v.bytesParsed v.sec v.lastKeyPos
    rw [show ({ o with status := .incomplete } : HPSBT) = { o with status := .incomplete, bytesParsed := v.bytesParsed, sec := v.sec, lastKeyPos := v.lastKeyPos } from by
      rw [← hs.bytes, ← hs.sec, ← hs.pos]]
    exact b

theorem idle_does (junk : Nat → Bytes) (fuel : Nat) (o : HPSBT) (v : PSBT) (br : Nat) (s : PStream) (hi : v.Inv) (hp : ¬ 5 < v.lastKeyPos) :
    Does (PsbtAt o v) (loop junk fuel o br s) (ParsePost (PSBT.loop junk fuel v br s) 0) := by
  refine Does.know same fun hs => ?_
  have h0 : v.sections = 0 := by
    unfold PSBT.sections
    rw [if_neg hp]
  have e1 : loop junk fuel o br s = o.finishAll br s := by
    cases fuel with
    | zero => rfl
    | succ n =>
      rw [loop, if_neg]
      rw [hs.sections, h0]
      rintro ⟨-, c⟩
      exact absurd c (by simp)
  have e2 : PSBT.loop junk fuel v br s = v.finishAll br s := by
    cases fuel with
    | zero => rfl
    | succ n =>
      rw [PSBT.loop, if_neg]
      rw [h0]
      rintro ⟨-, c⟩
      exact absurd c (by simp)
  rw [e1, e2]
  unfold finishAll PSBT.finishAll
  rw [if_neg (by rw [hs.sections, h0]; simp), if_neg (by rw [h0]; simp), hs.status]
  exact Does.ret (PsbtAt.stable _ _) (fun {h A} a => fact_star.2 ⟨⟨rfl, hi.moves br s⟩, lostNone (finish_at a _ _ _)⟩)

theorem afterGlobal_does (junk : Nat → Bytes) (o : HPSBT) (v : PSBT) (br : Nat) (s : PStream) (hi : v.Inv) (hst : v.status = .incomplete)
    (ha : s.avail = true → v.key.status = .done ∧ v.value.status = .done) (hub : (PSBT.afterGlobal junk v br s).1.status ≠ .ub) :
    Does (PsbtAt o v) (afterGlobal junk o br s) (ParsePost (PSBT.afterGlobal junk v br s) (PSBT.afterGlobalLoss junk v br s)) := by
  refine Does.know same fun hs => ?_
  unfold afterGlobal PSBT.afterGlobalLoss
  unfold PSBT.afterGlobal at hub ⊢
  rw [hs.pos, hs.key, hs.value]
  by_cases hc : v.lastKeyPos = 5 ∧ v.value.status = .done ∧ v.key.status = .done
  · rw [if_pos hc] at hub
    rw [if_pos hc, if_pos hc, if_pos hc]
    cases e : v.readTx with
    | ub =>
      rw [e] at hub
      exact absurd rfl hub
    | ok q =>
      rw [e] at hub
      dsimp only at hub ⊢
      have hn := hi.early hst (by omega)
      refine (readTx_does o v q e hi.tx hc.2.2 hc.2.1 hn).bind fun x => ?_
      refine Does.know (fun ⟨_, _, a, _⟩ => same a) fun hx => ?_
      rw [hx.status]
      have sx := PsbtAt.stable x q
      have sl := Stable.lostLe v.readTxLoss
      rcases PSBT.readTx_next e hi.tx hc.2.2 hc.2.1 hst hc.1 hn s br with ⟨hf, hv⟩ | ⟨hf, hl⟩
      · rw [if_pos hf, if_pos hf, if_pos hf]
        exact Does.ret (sx.star sl) (fun {h A} a => fact_star.2 ⟨⟨rfl, hv⟩, star_mono (fun a => finish_at a _ _ _) (fun l => l) a⟩)
      · rw [if_neg hf] at hub
        rw [if_neg hf, if_neg hf, if_neg hf]
        refine ((loop_does junk _ x q br s hl hub).frame sx sl).post (fun {y h A} a => ?_)
        unfold ParsePost at a ⊢
        rw [Star.assoc, Star.assoc] at a
        refine star_mono (fun h => h) (star_mono (fun h => h) (fun l => ?_)) a
        rw [Star.comm] at l
        exact LostLe.add l
  · rw [if_neg hc] at hub
    rw [if_neg hc, if_neg hc, if_neg hc]
    by_cases hp : 5 < v.lastKeyPos
    · rw [if_pos hp]
      obtain ⟨hr, hl⟩ := hi.run hst hp
      exact loop_does junk _ o v br s ⟨hst, hp, hr, hi.key, hi.value, ha, fun c d => absurd ⟨c, d⟩ hl⟩ hub
    · rw [if_neg hp]
      exact idle_does junk _ o v br s hi hp

theorem globalValue_does (junk : Nat → Bytes) (o : HPSBT) (v : PSBT) (br : Nat) (s : PStream) (hi : v.Inv) (hst : v.status = .incomplete)
    (hk : v.key.status ≠ .failed ∧ v.key.status ≠ .ub) (ha : s.avail = true → v.key.status ≠ .incomplete) (hub : (PSBT.globalValue junk v br s).1.status ≠ .ub) :
    Does (PsbtAt o v) (globalValue junk o br s) (ParsePost (PSBT.globalValue junk v br s) (PSBT.globalValueLoss junk v br s)) := by
  refine Does.know same fun hs => ?_
  unfold globalValue PSBT.globalValueLoss
  unfold PSBT.globalValue at hub ⊢
  have dv := valueIf_does o v br s (c := s.avail ∧ o.value.status = .incomplete) (d := s.avail ∧ v.value.status = .incomplete) (by rw [hs.value])
  have hz : ∃ v1 n1 s1, (if s.avail ∧ v.value.status = .incomplete then v.parseValue br s else (v, br, s)) = (v1, n1, s1) ∧ v1.Inv ∧ v1.status = .incomplete ∧ v1.key = v.key ∧
      (s1.avail = true → v1.value.status ≠ .incomplete ∧ v1.key.status ≠ .incomplete) := by
    by_cases hc : s.avail ∧ v.value.status = .incomplete
    · rw [if_pos hc]
      have w := Script.fromStream_within v.value s hi.value
      refine ⟨_, _, _, rfl, hi.setValue w.1, hst, rfl, fun c => ⟨fun c' => ?_, ?_⟩⟩
      · exact Bool.false_ne_true ((w.2 c').symm.trans c)
      · exact ha hc.1
    · rw [if_neg hc]
      exact ⟨v, br, s, rfl, hi, hst, rfl, fun c => ⟨fun c' => hc ⟨c, c'⟩, ha c⟩⟩
  obtain ⟨v1, n1, s1, e1, i1, t1, k1, a1⟩ := hz
  rw [e1] at hub dv ⊢
  dsimp only at hub dv ⊢
  by_cases hu : v1.value.status = .ub
  · rw [if_pos hu] at hub
    exact absurd rfl hub
  rw [if_neg hu] at hub ⊢
  refine (dv hu).bind fun x => Does.fact fun ex => ?_
  obtain ⟨o1, n1', s1'⟩ := x
  dsimp only at ex ⊢
  obtain ⟨rfl, rfl⟩ := Prod.mk.inj ex
  refine Does.know same fun h1 => ?_
  rw [h1.value]
  by_cases hf : v1.value.status = .failed
  · rw [if_pos hf, if_pos hf, if_pos hf]
    exact Does.ret (PsbtAt.stable _ _) (fun {h A} a => fact_star.2 ⟨⟨rfl, i1.fails _ _⟩, lostNone (finish_at a _ _ _)⟩)
  · rw [if_neg hf] at hub
    rw [if_neg hf, if_neg hf, if_neg hf]
    refine afterGlobal_does junk o1 v1 n1' s1' i1 t1 (fun c => ?_) hub
    have h2 := a1 c
    rw [k1] at h2 ⊢
    constructor
    · cases e : v.key.status <;> simp_all
    · cases e : v1.value.status <;> simp_all

theorem globalKey_does (junk : Nat → Bytes) (o : HPSBT) (v : PSBT) (br : Nat) (s : PStream) (hi : v.Inv) (hst : v.status = .incomplete)
    (hub : (PSBT.globalKey junk v br s).1.status ≠ .ub) :
    Does (PsbtAt o v) (globalKey junk o br s) (ParsePost (PSBT.globalKey junk v br s) (PSBT.globalKeyLoss junk v br s)) := by
  refine Does.know same fun hs => ?_
  unfold globalKey PSBT.globalKeyLoss
  unfold PSBT.globalKey at hub ⊢
  have dv := keyIf_does o v br s (c := s.avail ∧ o.key.status = .incomplete) (d := s.avail ∧ v.key.status = .incomplete) (by rw [hs.key])
  have hz : ∃ v1 n1 s1, (if s.avail ∧ v.key.status = .incomplete then v.parseKey br s else (v, br, s)) = (v1, n1, s1) ∧ v1.Inv ∧ v1.status = .incomplete ∧
      (s1.avail = true → v1.key.status ≠ .incomplete) := by
    by_cases hc : s.avail ∧ v.key.status = .incomplete
    · rw [if_pos hc]
      have w := Script.fromStream_within v.key s hi.key
      refine ⟨_, _, _, rfl, hi.setKey w.1, hst, fun c c' => ?_⟩
      exact Bool.false_ne_true ((w.2 c').symm.trans c)
    · rw [if_neg hc]
      exact ⟨v, br, s, rfl, hi, hst, fun c c' => hc ⟨c, c'⟩⟩
  obtain ⟨v1, n1, s1, e1, i1, t1, a1⟩ := hz
  rw [e1] at hub dv ⊢
  dsimp only at hub dv ⊢
  by_cases hu : v1.key.status = .ub
  · rw [if_pos hu] at hub
    exact absurd rfl hub
  rw [if_neg hu] at hub ⊢
  refine (dv hu).bind fun x => Does.fact fun ex => ?_
  obtain ⟨o1, n1', s1'⟩ := x
  dsimp only at ex ⊢
  obtain ⟨rfl, rfl⟩ := Prod.mk.inj ex
  refine Does.know same fun h1 => ?_
  rw [h1.key]
  by_cases hf : v1.key.status = .failed
  · rw [if_pos hf] at hub
    rw [if_pos hf, if_pos hf, if_pos hf]
    by_cases hvu : v1.value.status = .ub
    · rw [if_pos hvu] at hub
      exact absurd rfl hub
    rw [if_neg hvu]
    exact Does.ret (PsbtAt.stable _ _) (fun {h A} a => fact_star.2 ⟨⟨rfl, i1.fails _ _⟩, lostNone (finish_at a _ _ _)⟩)
  · rw [if_neg hf] at hub
    rw [if_neg hf, if_neg hf, if_neg hf]
    exact globalValue_does junk o1 v1 n1' s1' i1 t1 ⟨hf, hu⟩ a1 hub

theorem _root_.UB.PSBT.globalKey_ub (junk : Nat → Bytes) (v : PSBT) (br : Nat) (s : PStream) (h : (PSBT.globalKey junk v br s).1.status ≠ .ub) :
    v.key.status ≠ .ub ∧ v.value.status ≠ .ub := by
  unfold PSBT.globalKey at h
  constructor
  · intro hu
    rw [if_neg (by rw [hu]; simp)] at h
    dsimp only at h
    rw [if_pos hu] at h
    exact h rfl
  · intro hu
    have e : (if s.avail ∧ v.key.status = .incomplete then v.parseKey br s else (v, br, s)).1.value = v.value := by split <;> rfl
    generalize (if s.avail ∧ v.key.status = .incomplete then v.parseKey br s else (v, br, s)) = z at h e
    obtain ⟨v1, n1, s1⟩ := z
    dsimp only at h e
    rw [← e] at hu
    split at h
    · exact h rfl
    · split at h
      · exact h rfl
      · unfold PSBT.globalValue at h
        rw [if_neg (by rw [hu]; simp)] at h
        dsimp only at h
        rw [if_pos hu] at h
        exact h rfl

theorem readGlobal_does (junk : Nat → Bytes) (o : HPSBT) (v : PSBT) (br : Nat) (s : PStream) (hi : v.Inv) (hst : v.status = .incomplete)
    (hub : (PSBT.readGlobal junk v br s).1.status ≠ .ub) :
    Does (PsbtAt o v) (readGlobal junk o br s) (ParsePost (PSBT.readGlobal junk v br s) (PSBT.readGlobalLoss junk v br s)) := by
  refine Does.know same fun hs => ?_
  unfold readGlobal PSBT.readGlobalLoss
  unfold PSBT.readGlobal at hub ⊢
  rw [hs.bytes, hs.pos]
  by_cases hc : br + v.bytesParsed = v.lastKeyPos
  · rw [if_pos hc] at hub
    rw [if_pos hc, if_pos hc, if_pos hc]
    have w1 := Script.fromStream_within v.key s hi.key
    have i1 : (v.parseKey br s).1.Inv := hi.setKey w1.1
    have t1 : (v.parseKey br s).1.status = .incomplete := hst
    have d1 := parseKey_does o v br s
    generalize v.parseKey br s = z at hub i1 t1 d1 ⊢
    obtain ⟨v1, n1, s1⟩ := z
    dsimp only at hub i1 t1 d1 ⊢
    have w2 := Script.fromStream_within v1.value s1 i1.value
    have i2 : (v1.parseValue n1 s1).1.Inv := i1.setValue w2.1
    have t2 : (v1.parseValue n1 s1).1.status = .incomplete := t1
    have k2 : (v1.parseValue n1 s1).1.key = v1.key := rfl
    have d2 := fun o1 => parseValue_does o1 v1 n1 s1
    generalize v1.parseValue n1 s1 = z at hub i2 t2 k2 d2 ⊢
    obtain ⟨v2, n2, s2⟩ := z
    dsimp only at hub i2 t2 k2 d2 ⊢
    have hu := PSBT.globalKey_ub junk v2 n2 s2 hub
    refine (d1 (by rw [← k2]; exact hu.1)).bind fun x => Does.fact fun ex => ?_
    obtain ⟨o1, n1', s1'⟩ := x
    dsimp only at ex ⊢
    obtain ⟨rfl, rfl⟩ := Prod.mk.inj ex
    refine (d2 o1 hu.2).bind fun x => Does.fact fun ex => ?_
    obtain ⟨o2, n2', s2'⟩ := x
    dsimp only at ex ⊢
    obtain ⟨rfl, rfl⟩ := Prod.mk.inj ex
    exact globalKey_does junk o2 v2 n2' s2' i2 t2 hub
  · rw [if_neg hc] at hub
    rw [if_neg hc, if_neg hc, if_neg hc]
    exact globalKey_does junk o v br s hi hst hub

/-- Parsing a PSBT object on the heap: the value is that of Model/PSBT, whatever the object held before. -/
theorem fromStream_does (junk : Nat → Bytes) (o : HPSBT) (v : PSBT) (s : PStream) (hi : v.Inv) (hub : (PSBT.fromStream junk v s).1.status ≠ .ub) :
    Does (PsbtAt o v) (fromStream junk o s) (ParsePost (PSBT.fromStream junk v s) (PSBT.parseLoss junk v s)) := by
  refine Does.know same fun hs => ?_
  unfold fromStream PSBT.parseLoss
  unfold PSBT.fromStream at hub ⊢
  rw [hs.status]
  by_cases hf : v.status = .failed ∨ v.status = .ub
  · rw [if_pos hf, if_pos hf, if_pos hf]
    exact Does.ret (PsbtAt.stable _ _) (fun {h A} a => fact_star.2 ⟨⟨rfl, hi⟩, lostNone a⟩)
  rw [if_neg hf] at hub
  rw [if_neg hf, if_neg hf, if_neg hf]
  by_cases hr : v.status = .done ∧ v.release = .ub
  · rw [if_pos hr] at hub
    exact absurd rfl hub
  rw [if_neg hr] at hub ⊢
  have hst : v.status = .done ∨ v.status = .incomplete := by
    revert hf
    cases v.status <;> simp
  obtain ⟨i0, t0⟩ := hi.start hst
  refine (start_does o v hi (fun c => ?_)).bind fun x => ?_
  · cases e : v.release with
    | ub => exact absurd ⟨c, e⟩ hr
    | ok u => rfl
  refine Does.know same fun hx => ?_
  rw [hx.bytes]
  dsimp only at hub ⊢
  generalize PSBT.readMagic (PSBT.magic.drop v.start.bytesParsed) 0 s = z at hub ⊢
  obtain ⟨b, n, s'⟩ := z
  cases b with
  | false =>
    dsimp only
    exact Does.ret (PsbtAt.stable _ _) (fun {h A} a => fact_star.2 ⟨⟨rfl, i0.fails _ _⟩, lostNone (finish_at a _ _ _)⟩)
  | true =>
    dsimp only at hub ⊢
    exact readGlobal_does junk x v.start n s' i0 t0 hub

end HPSBT
end UB
