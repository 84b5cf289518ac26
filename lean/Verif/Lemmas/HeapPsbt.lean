import Verif.Lemmas.PSBTWell
import Verif.Model.Copy
import Verif.Lemmas.Mnemonic

/-! PSBT objects on the heap. -/

namespace UB
open Heap Spec

/-! ### Arrays of metadata -/

/-- An array and its elements; without elements nothing is known of the array. -/
def MetaArr {α β : Type} (P : α → β → HProp) (p : Nat) (os : List α) : List β → HProp
  | [] => emp
  | v :: vs => Block p ⋆ EachAt P os (v :: vs)

namespace MetaArr

variable {α β : Type} {P : α → β → HProp} {p : Nat} {os : List α} {vs : List β}

theorem pos (h : vs ≠ []) : MetaArr P p os vs = Block p ⋆ EachAt P os vs := by
  cases vs with
  | nil => exact absurd rfl h
  | cons _ _ => rfl

theorem stable (st : ∀ o v, Stable (P o v)) (p : Nat) (os : List α) (vs : List β) : Stable (MetaArr P p os vs) := by
  cases vs with
  | nil => exact Stable.emp
  | cons v vs => exact (Stable.block p).star (EachAt.stable st _ _)

theorem length {h : Heap} {A : Finset Nat} (a : MetaArr P p os vs h A) : vs = [] ∨ os.length = vs.length := by
  cases vs with
  | nil => exact Or.inl rfl
  | cons v vs =>
    obtain ⟨A1, A2, -, e, -⟩ := a
    exact Or.inr e.length

theorem block {h : Heap} {A : Finset Nat} (a : MetaArr P p os vs h A) (hn : vs ≠ []) : h.blocks p ≠ none := by
  rw [pos hn] at a
  obtain ⟨A1, A2, b, -⟩ := a
  exact b.1

/-- The elements that exist are the first ones. -/
theorem each {h : Heap} {A : Finset Nat} : MetaArr P p os vs h A → (BlockIf (vs.length > 0) p ⋆ EachAt P (os.take vs.length) vs) h A := by
  cases vs with
  | nil =>
    intro a
    show (emp ⋆ emp) h A
    rw [emp_star]
    exact a
  | cons v vs =>
    intro a
    have hl := a.length.resolve_left (by simp)
    rw [List.take_of_length_le hl.le, BlockIf.pos (by simp)]
    exact a

theorem access_does (st : ∀ o v, Stable (P o v)) {n : Nat} (hn : n > 0 → vs ≠ []) : Does (MetaArr P p os vs) (HM.access p n) (fun _ => MetaArr P p os vs) :=
  Does.access (stable st p os vs) (fun a h0 => a.block (hn h0))

/-- A new array with new elements. -/
theorem make {h : Heap} {A : Finset Nat} (a : (Block p ⋆ EachAt P os vs) h A) : (MetaArr P p os vs ⋆ LostLe (if vs = [] then 1 else 0)) h A := by
  cases vs with
  | nil =>
    rw [if_pos rfl]
    cases os with
    | nil =>
      change (Block p ⋆ emp) h A at a
      rw [star_emp] at a
      show (emp ⋆ LostLe 1) h A
      rw [emp_star]
      exact a.lostLe
    | cons _ _ =>
      obtain ⟨_, _, _, e, _⟩ := a
      exact e.elim
  | cons v vs =>
    rw [if_neg (by simp), LostLe.zero_eq, star_emp]
    exact a

/-- `delete []` after the elements have given back their blocks. -/
theorem free_does {M D : α → β → HProp} (sm : ∀ o v, Stable (M o v)) (sd : ∀ o v, Stable (D o v)) {rel : α → HM Unit} {G : β → Prop}
    (hrel : ∀ o v, G v → Does (D o v) (rel o) (fun _ => emp)) {des : α → Heap → C Heap}
    (hdes : ∀ {h : Heap} {o : α} {v : β} {A : Finset Nat}, h.Wf → M o v h A → ∃ h', des o h = .ok h' ∧ Step h h' A ∅) (p : Nat) (os : List α) (vs : List β)
    (hg : ∀ v ∈ vs, G v) {n : Nat} (hn : n = vs.length) :
    Does (MetaArr (fun o v => M o v ⋆ D o v) p os vs) (HM.ifElse (n > 0) (do
      HM.access p n
      if os.length < n then HM.ub
      else do
        HM.forEach rel (os.take n)
        HM.run (deleteArray des p os)) (pure ())) (fun _ => emp) := by
  subst hn
  have st : ∀ o v, Stable (M o v ⋆ D o v) := fun o v => (sm o v).star (sd o v)
  unfold HM.ifElse
  cases vs with
  | nil =>
    rw [if_neg (by simp)]
    exact Does.ret Stable.emp (fun h => h)
  | cons v vs =>
    rw [if_pos (by simp)]
    refine (access_does st (by simp)).bind fun _ => ?_
    refine Does.know (fun a => a.length.resolve_left (by simp)) fun hl => ?_
    rw [if_neg (by omega), List.take_of_length_le hl.le]
    refine Does.swap (P := EachAt D os (v :: vs) ⋆ Block p ⋆ EachAt M os (v :: vs)) ?_ ?_
    · refine (Does.forEach sd hrel os (v :: vs) hg).step (EachAt.stable sd _ _) ((Stable.block p).star (EachAt.stable sm _ _)) fun _ => ?_
      rw [emp_star]
      exact Does.deleteArray sm hdes p os (v :: vs)
    · rw [pos (by simp), EachAt.parts]
      ac_rfl

/-- Copies of the elements. -/
theorem map_does (st : ∀ o v, Stable (P o v)) {f : α → HM α} {g : β → β} {n : β → Nat} {G : β → Prop}
    (hf : ∀ o v, G v → Does (P o v) (f o) (fun o' => P o' (g v) ⋆ LostLe (n v) ⋆ P o v)) (p : Nat) (os : List α) (vs : List β) (hg : ∀ v ∈ vs, G v) {k : Nat} (hk : k = vs.length) :
    Does (MetaArr P p os vs) (HM.mapEach f (os.take k)) (fun os' => EachAt P os' (vs.map g) ⋆ LostLe (vs.map n).sum ⋆ MetaArr P p os vs) := by
  subst hk
  cases vs with
  | nil =>
    refine Does.ret Stable.emp (fun h => ?_)
    show (emp ⋆ LostLe 0 ⋆ emp) _ _
    rw [LostLe.zero_eq, emp_star, emp_star]
    exact h
  | cons v vs =>
    refine Does.know (fun a => a.length.resolve_left (by simp)) fun hl => ?_
    rw [List.take_of_length_le hl.le]
    refine Does.swap (P := EachAt P os (v :: vs) ⋆ Block p) ?_ (Star.comm _ _)
    refine ((Does.mapEach st st hf os (v :: vs) hg).frame (EachAt.stable st _ _) (Stable.block p)).post (fun {os' h A} a => ?_)
    have e : (EachAt P os' ((v :: vs).map g) ⋆ LostLe ((v :: vs).map n).sum ⋆ EachAt P os (v :: vs)) ⋆ Block p =
        EachAt P os' ((v :: vs).map g) ⋆ LostLe ((v :: vs).map n).sum ⋆ (Block p ⋆ EachAt P os (v :: vs)) := by ac_rfl
    rw [e] at a
    exact a

/-- Access, check and copies, as in the copy constructor. -/
theorem copy_step (st : ∀ o v, Stable (P o v)) {f : α → HM α} {g : β → β} {n : β → Nat} {G : β → Prop}
    (hf : ∀ o v, G v → Does (P o v) (f o) (fun o' => P o' (g v) ⋆ LostLe (n v) ⋆ P o v)) (p : Nat) (os : List α) (vs : List β) (hg : ∀ v ∈ vs, G v) {k : Nat} (hk : k = vs.length)
    {R : HProp} (sr : Stable R) {γ : Type} {c : List α → HM γ} {S : γ → HProp}
    (h2 : ∀ os', Does ((EachAt P os' (vs.map g) ⋆ LostLe (vs.map n).sum ⋆ MetaArr P p os vs) ⋆ R) (c os') S) :
    Does (MetaArr P p os vs ⋆ R) (do
      HM.access p k
      if os.length < k then HM.ub
      else do
        let os' ← HM.mapEach f (os.take k)
        c os') S := by
  have sm := stable st p os vs
  refine (access_does st (fun h0 => ?_)).step sm sr fun _ => ?_
  · rw [hk] at h0
    exact List.length_pos_iff.1 h0
  refine Does.know (fun ⟨_, _, a, _⟩ => a.length) fun hl => ?_
  rw [if_neg (by rcases hl with hl | hl <;> simp_all)]
  exact (map_does st hf p os vs hg hk).step sm sr h2

theorem split {i : Nat} {o : α} {v : β} (ho : os[i]? = some o) (hv : vs[i]? = some v) :
    MetaArr P p os vs = P o v ⋆ Block p ⋆ EachAt P (os.eraseIdx i) (vs.eraseIdx i) := by
  rw [pos (by rintro rfl; simp at hv), EachAt.split i ho hv]
  ac_rfl

theorem unsplit {i : Nat} (o : α) (v : β) (ho : i < os.length) (hv : i < vs.length) :
    P o v ⋆ Block p ⋆ EachAt P (os.eraseIdx i) (vs.eraseIdx i) = MetaArr P p (os.set i o) (vs.set i v) := by
  rw [pos (by intro h; have := congrArg List.length h; rw [List.length_set, List.length_nil] at this; omega), ← EachAt.unsplit o v ho hv]
  ac_rfl

theorem lookup {h : Heap} {A : Finset Nat} (a : MetaArr P p os vs h A) {i : Nat} {v : β} (hv : vs[i]? = some v) : os.length = vs.length ∧ h.blocks p ≠ none ∧ ∃ o, os[i]? = some o := by
  have hn : vs ≠ [] := by rintro rfl; simp at hv
  have hl := a.length.resolve_left hn
  have hi : i < vs.length := (List.getElem?_eq_some_iff.1 hv).1
  exact ⟨hl, a.block hn, os[i]'(by omega), List.getElem?_eq_getElem _⟩

end MetaArr

/-! ### Objects -/

/-- The members other than key and value. -/
def PsbtCore (o : HPSBT) (v : PSBT) : HProp :=
  fact (o.status = v.status ∧ o.bytesParsed = v.bytesParsed ∧ o.sec = v.sec ∧ o.lastKeyPos = v.lastKeyPos) ⋆ CTxAt o.tx v.tx ⋆
    MetaArr InMetaAt o.insPtr o.ins v.ins ⋆ MetaArr OutMetaAt o.outsPtr o.outs v.outs

/-- The object `o` has the value `v`. -/
def PsbtAt (o : HPSBT) (v : PSBT) : HProp := ScriptAt o.key v.key ⋆ ScriptAt o.value v.value ⋆ PsbtCore o v

theorem PsbtCore.stable (o : HPSBT) (v : PSBT) : Stable (PsbtCore o v) :=
  (Stable.fact _).star ((CTxAt.stable _ _).star ((MetaArr.stable InMetaAt.stable _ _ _).star (MetaArr.stable OutMetaAt.stable _ _ _)))

theorem PsbtAt.stable (o : HPSBT) (v : PSBT) : Stable (PsbtAt o v) := (ScriptAt.stable _ _).star ((ScriptAt.stable _ _).star (PsbtCore.stable o v))

theorem CTxAt.null {h : Heap} {A : Finset Nat} (a : emp h A) : CTxAt {} {} h A := by
  rw [show A = ∅ from a]
  exact ⟨[], TxAt.null h, fun i hi => by cases hi⟩

theorem ScriptAt.nullEmp {h : Heap} {A : Finset Nat} (a : emp h A) : ScriptAt {} {} h A := by
  rw [show A = ∅ from a]
  exact ScriptAt.null h

theorem PsbtAt.null {h : Heap} {A : Finset Nat} (a : emp h A) : PsbtAt {} {} h A := by
  unfold PsbtAt PsbtCore
  have : (emp ⋆ emp ⋆ fact True ⋆ emp ⋆ emp ⋆ emp) h A := by
    rw [fact_true trivial]
    simp only [emp_star]
    exact a
  refine star_mono ScriptAt.nullEmp (star_mono ScriptAt.nullEmp (star_mono ?_ (star_mono CTxAt.null (star_mono (fun h => h) (fun h => h))))) this
  rintro _ _ ⟨-, e⟩
  exact ⟨⟨rfl, rfl, rfl, rfl⟩, e⟩

namespace HPSBT

theorem PSBT.release_counts {v : PSBT} (hf : (v.ins.length = v.tx.txIns.length ∧ v.outs.length = v.tx.txOuts.length) ∨ (v.ins = [] ∧ v.outs = [])) (hr : v.release = .ok ()) :
    v.tx.txIns.length = v.ins.length ∧ v.tx.txOuts.length = v.outs.length ∧ (∀ m ∈ v.ins, Derivation.AllReady m.derivations) ∧ ∀ m ∈ v.outs, Derivation.AllReady m.derivations := by
  unfold PSBT.release at hr
  split at hr
  · rename_i hc
    obtain ⟨h1, h2, h3, h4⟩ := hc
    have e : v.tx.txIns.length = v.ins.length ∧ v.tx.txOuts.length = v.outs.length := by
      rcases hf with hf | hf
      · exact ⟨hf.1.symm, hf.2.symm⟩
      · rw [hf.1] at h1
        rw [hf.2] at h2
        rw [hf.1, hf.2]
        simp only [List.length_nil] at *
        omega
    rw [List.take_of_length_le e.1.ge, List.all_eq_true] at h3
    rw [List.take_of_length_le e.2.ge, List.all_eq_true] at h4
    exact ⟨e.1, e.2, fun m hm => PSBT.all_ready_iff.1 (h3 m hm), fun m hm => PSBT.all_ready_iff.1 (h4 m hm)⟩
  · cases hr

/-- The metadata is given back. -/
theorem release_does (o : HPSBT) (v : PSBT) (hf : (v.ins.length = v.tx.txIns.length ∧ v.outs.length = v.tx.txOuts.length) ∨ (v.ins = [] ∧ v.outs = []))
    (hr : v.release = .ok ()) :
    Does (CTxAt o.tx v.tx ⋆ MetaArr InMetaAt o.insPtr o.ins v.ins ⋆ MetaArr OutMetaAt o.outsPtr o.outs v.outs) o.release (fun _ => CTxAt o.tx v.tx) := by
  obtain ⟨n1, n2, r1, r2⟩ := PSBT.release_counts hf hr
  refine Does.know (fun ⟨_, _, a, _⟩ => HTx.facts a) fun hl => ?_
  have sc := CTxAt.stable o.tx v.tx
  have si := MetaArr.stable InMetaAt.stable o.insPtr o.ins v.ins
  have so := MetaArr.stable OutMetaAt.stable o.outsPtr o.outs v.outs
  unfold release
  refine Does.swap (P := MetaArr InMetaAt o.insPtr o.ins v.ins ⋆ MetaArr OutMetaAt o.outsPtr o.outs v.outs ⋆ CTxAt o.tx v.tx) ?_ (by ac_rfl)
  refine (MetaArr.free_does InMemAt.stable InDynAt.stable HInMeta.release_does HInMeta.destroy_at o.insPtr o.ins v.ins r1 (hl.2.1.trans n1)).step si (so.star sc) fun _ => ?_
  rw [emp_star]
  refine ((MetaArr.free_does OutMemAt.stable OutDynAt.stable HOutMeta.release_does HOutMeta.destroy_at o.outsPtr o.outs v.outs r2 (hl.2.2.trans n2)).frame so sc).post (fun a => ?_)
  rw [emp_star] at a
  exact a

theorem destroy_does (o : HPSBT) (v : PSBT) (hf : (v.ins.length = v.tx.txIns.length ∧ v.outs.length = v.tx.txOuts.length) ∨ (v.ins = [] ∧ v.outs = []))
    (hr : v.release = .ok ()) : Does (PsbtAt o v) o.destroy (fun _ => emp) := by
  unfold destroy PsbtAt PsbtCore
  have sk := ScriptAt.stable o.key v.key
  have sv := ScriptAt.stable o.value v.value
  have sc := CTxAt.stable o.tx v.tx
  have sm := sc.star ((MetaArr.stable InMetaAt.stable o.insPtr o.ins v.ins).star (MetaArr.stable OutMetaAt.stable o.outsPtr o.outs v.outs))
  refine Does.swap (P := fact (o.status = v.status ∧ o.bytesParsed = v.bytesParsed ∧ o.sec = v.sec ∧ o.lastKeyPos = v.lastKeyPos) ⋆
    (CTxAt o.tx v.tx ⋆ MetaArr InMetaAt o.insPtr o.ins v.ins ⋆ MetaArr OutMetaAt o.outsPtr o.outs v.outs) ⋆ ScriptAt o.value v.value ⋆ ScriptAt o.key v.key) ?_ (by ac_rfl)
  refine Does.fact fun _ => ?_
  refine (release_does o v hf hr).step sm (sv.star sk) fun _ => ?_
  refine (HTx.destroy_does o.tx v.tx).step sc (sv.star sk) fun _ => ?_
  rw [emp_star]
  refine (Does.run fun w a => HScript.destroy_at w a).step sv sk fun _ => ?_
  rw [emp_star]
  exact Does.run fun w a => HScript.destroy_at w a

end HPSBT

/-! ### Copies -/

theorem Derivation.mapM_ready : ∀ {ds : List Derivation}, Derivation.AllReady ds → ds.mapM Derivation.copy = .ok ds
  | [], _ => rfl
  | d :: ds, h => by
    rw [List.mapM_cons, Derivation.copy, if_pos (h d (List.mem_cons_self ..)), C.bind_ok, Derivation.mapM_ready fun e he => h e (List.mem_cons_of_mem _ he), C.bind_ok]
    rfl

theorem C.mapM_map {α β : Type} {f : α → C β} {g : α → β} : ∀ {l : List α}, (∀ a ∈ l, f a = .ok (g a)) → l.mapM f = .ok (l.map g)
  | [], _ => rfl
  | a :: l, h => by
    rw [List.mapM_cons, h a (List.mem_cons_self ..), C.bind_ok, C.mapM_map fun e he => h e (List.mem_cons_of_mem _ he), C.bind_ok]
    rfl

namespace PSBT

/-- What a copy takes over. -/
theorem take_rich (self : PSBT) {v : PSBT} (h : v.Rich) :
    self.take v = .ok { self with tx := v.tx.copy, status := v.status, ins := v.ins.map InMeta.fresh, outs := v.outs.map OutMeta.fresh } := by
  unfold take
  rw [if_pos ⟨h.ins.ge, h.outs.ge⟩, List.take_of_length_le h.ins.le, List.take_of_length_le h.outs.le,
    C.mapM_map (g := InMeta.fresh) (fun m hm => ?_), C.bind_ok, C.mapM_map (g := OutMeta.fresh) (fun m hm => ?_), C.bind_ok, C.pure_eq]
  · unfold OutMeta.copy OutMeta.fresh
    rw [Derivation.mapM_ready (h.outReady m hm), C.bind_ok, C.pure_eq]
  · unfold InMeta.copy InMeta.fresh
    rw [Derivation.mapM_ready (h.inReady m hm), C.bind_ok, C.pure_eq]

end PSBT

theorem Tx.copy_counts (t : Tx) : t.copy.txIns.length = t.txIns.length ∧ t.copy.txOuts.length = t.txOuts.length := by
  unfold Tx.copy
  exact ⟨by simp, by simp⟩

namespace HPSBT

theorem copy_does (o : HPSBT) (v : PSBT) (hv : v.Rich) :
    Does (PsbtAt o v) o.copy (fun o' => PsbtAt o' { tx := v.tx.copy, status := v.status, ins := v.ins.map InMeta.fresh, outs := v.outs.map OutMeta.fresh } ⋆
      LostLe v.copyLoss ⋆ PsbtAt o v) := by
  unfold copy
  have sk := ScriptAt.stable o.key v.key
  have sv := ScriptAt.stable o.value v.value
  have sc := CTxAt.stable o.tx v.tx
  have si := MetaArr.stable InMetaAt.stable o.insPtr o.ins v.ins
  have so := MetaArr.stable OutMetaAt.stable o.outsPtr o.outs v.outs
  have s0 := CTxAt.stable {} {}
  refine Does.swap (P := fact (o.status = v.status ∧ o.bytesParsed = v.bytesParsed ∧ o.sec = v.sec ∧ o.lastKeyPos = v.lastKeyPos) ⋆
    (CTxAt o.tx v.tx ⋆ MetaArr InMetaAt o.insPtr o.ins v.ins ⋆ MetaArr OutMetaAt o.outsPtr o.outs v.outs ⋆ ScriptAt o.key v.key ⋆ ScriptAt o.value v.value)) ?_ (by unfold PsbtAt PsbtCore; ac_rfl)
  refine Does.fact fun ef => ?_
  refine Does.pre (P := CTxAt {} {} ⋆ (CTxAt o.tx v.tx ⋆ MetaArr InMetaAt o.insPtr o.ins v.ins ⋆ MetaArr OutMetaAt o.outsPtr o.outs v.outs ⋆ ScriptAt o.key v.key ⋆ ScriptAt o.value v.value)) ?_
    (fun {h A} a => by
      rw [← emp_star (CTxAt o.tx v.tx ⋆ _)] at a
      exact star_mono CTxAt.null (fun h => h) a)
  refine Does.swap (P := (CTxAt {} {} ⋆ CTxAt o.tx v.tx) ⋆ MetaArr InMetaAt o.insPtr o.ins v.ins ⋆ MetaArr OutMetaAt o.outsPtr o.outs v.outs ⋆ ScriptAt o.key v.key ⋆ ScriptAt o.value v.value) ?_ (by ac_rfl)
  refine (HTx.assign_does {} o.tx {} v.tx (hv.tx.all hv.txDone)).step (s0.star sc) (si.star (so.star (sk.star sv))) fun t => ?_
  have stt := CTxAt.stable t v.tx.copy
  have sl := Stable.lostLe v.tx.emptyArrays
  refine Does.know (fun ⟨_, _, ⟨_, _, a, _⟩, _⟩ => HTx.facts a) fun ht => ?_
  have hcnt := Tx.copy_counts v.tx
  refine Does.swap (P := MetaArr InMetaAt o.insPtr o.ins v.ins ⋆ MetaArr OutMetaAt o.outsPtr o.outs v.outs ⋆ CTxAt t v.tx.copy ⋆ LostLe v.tx.emptyArrays ⋆ CTxAt o.tx v.tx ⋆
    ScriptAt o.key v.key ⋆ ScriptAt o.value v.value) ?_ (by ac_rfl)
  have rr := stt.star (sl.star (sc.star (sk.star sv)))
  refine Does.fromEmp (Does.new.step Stable.emp (si.star (so.star rr)) fun p => ?_)
  have sp := Stable.block p
  refine Does.fromEmp (Does.new.step Stable.emp (sp.star (si.star (so.star rr))) fun q => ?_)
  have sq := Stable.block q
  refine Does.swap (P := MetaArr InMetaAt o.insPtr o.ins v.ins ⋆ (MetaArr OutMetaAt o.outsPtr o.outs v.outs ⋆ Block p ⋆ Block q ⋆ CTxAt t v.tx.copy ⋆ LostLe v.tx.emptyArrays ⋆ CTxAt o.tx v.tx ⋆
    ScriptAt o.key v.key ⋆ ScriptAt o.value v.value)) ?_ (by ac_rfl)
  refine MetaArr.copy_step InMetaAt.stable HInMeta.copy_does o.insPtr o.ins v.ins (fun m hm => ⟨hv.inWhole m hm, hv.inReady m hm⟩)
    (by rw [ht.2.1, hcnt.1, hv.ins]) (so.star (sp.star (sq.star rr))) fun is => ?_
  have si' := EachAt.stable InMetaAt.stable is (v.ins.map InMeta.fresh)
  have sl1 := Stable.lostLe (v.ins.map InMeta.hollows).sum
  refine Does.swap (P := MetaArr OutMetaAt o.outsPtr o.outs v.outs ⋆ (EachAt InMetaAt is (v.ins.map InMeta.fresh) ⋆ LostLe (v.ins.map InMeta.hollows).sum ⋆ MetaArr InMetaAt o.insPtr o.ins v.ins ⋆
    Block p ⋆ Block q ⋆ CTxAt t v.tx.copy ⋆ LostLe v.tx.emptyArrays ⋆ CTxAt o.tx v.tx ⋆ ScriptAt o.key v.key ⋆ ScriptAt o.value v.value)) ?_ (by ac_rfl)
  have rest := si'.star (sl1.star (si.star (sp.star (sq.star rr))))
  refine MetaArr.copy_step OutMetaAt.stable HOutMeta.copy_does o.outsPtr o.outs v.outs (fun m hm => ⟨hv.outWhole m hm, hv.outReady m hm⟩)
    (by rw [ht.2.2, hcnt.2, hv.outs]) rest fun us => ?_
  have so' := EachAt.stable OutMetaAt.stable us (v.outs.map OutMeta.fresh)
  have sl2 := Stable.lostLe (v.outs.map fun m => Derivation.hollows m.derivations).sum
  refine Does.ret ((so'.star (sl2.star so)).star rest) (fun {h A} a => ?_)
  have e : (EachAt OutMetaAt us (v.outs.map OutMeta.fresh) ⋆ LostLe (v.outs.map fun m => Derivation.hollows m.derivations).sum ⋆ MetaArr OutMetaAt o.outsPtr o.outs v.outs) ⋆
      EachAt InMetaAt is (v.ins.map InMeta.fresh) ⋆ LostLe (v.ins.map InMeta.hollows).sum ⋆ MetaArr InMetaAt o.insPtr o.ins v.ins ⋆
      Block p ⋆ Block q ⋆ CTxAt t v.tx.copy ⋆ LostLe v.tx.emptyArrays ⋆ CTxAt o.tx v.tx ⋆ ScriptAt o.key v.key ⋆ ScriptAt o.value v.value =
      (Block p ⋆ EachAt InMetaAt is (v.ins.map InMeta.fresh)) ⋆ (Block q ⋆ EachAt OutMetaAt us (v.outs.map OutMeta.fresh)) ⋆ CTxAt t v.tx.copy ⋆
      (LostLe v.tx.emptyArrays ⋆ LostLe (v.ins.map InMeta.hollows).sum ⋆ LostLe (v.outs.map fun m => Derivation.hollows m.derivations).sum) ⋆
      (ScriptAt o.key v.key ⋆ ScriptAt o.value v.value ⋆ CTxAt o.tx v.tx ⋆ MetaArr InMetaAt o.insPtr o.ins v.ins ⋆ MetaArr OutMetaAt o.outsPtr o.outs v.outs) := by ac_rfl
  rw [e] at a
  have b := star_mono MetaArr.make (star_mono MetaArr.make (fun h => h)) a
  have e' : ∀ (I O l1 l2 T L1 L2 L3 Z : HProp), (I ⋆ l1) ⋆ (O ⋆ l2) ⋆ T ⋆ (L1 ⋆ L2 ⋆ L3) ⋆ Z = (emp ⋆ emp ⋆ fact True ⋆ T ⋆ I ⋆ O) ⋆ ((L1 ⋆ l1) ⋆ (l2 ⋆ L2) ⋆ L3) ⋆ Z := by
    intros
    rw [fact_true trivial]
    simp only [emp_star]
    ac_rfl
  rw [e'] at b
  refine star_mono (star_mono ScriptAt.nullEmp (star_mono ScriptAt.nullEmp (star_mono (fun {h A} f => ?_) (fun h => h)))) (star_mono (fun {h A} l => ?_) (fun {h A} z => ?_)) b
  · exact ⟨⟨ef.1, rfl, rfl, rfl⟩, f.2⟩
  · refine LostLe.mono ?_ (LostLe.add (star_mono LostLe.add (fun l => LostLe.add (star_mono LostLe.add (fun h => h) l)) l))
    unfold PSBT.copyLoss
    simp only [List.map_eq_nil_iff]
    omega
  · show (ScriptAt o.key v.key ⋆ ScriptAt o.value v.value ⋆ fact _ ⋆ CTxAt o.tx v.tx ⋆ MetaArr InMetaAt o.insPtr o.ins v.ins ⋆ MetaArr OutMetaAt o.outsPtr o.outs v.outs) h A
    rw [fact_true ef, emp_star]
    exact z

theorem takeIns_does (self o : HPSBT) (v : PSBT) (hw : ∀ m ∈ v.ins, m.Whole ∧ Derivation.AllReady m.derivations) (hn : self.tx.txIns.length = v.ins.length) :
    Does (MetaArr InMetaAt o.insPtr o.ins v.ins) (takeIns self o) (fun o' => fact (o' = { self with insPtr := o'.insPtr, ins := o'.ins }) ⋆
      MetaArr InMetaAt o'.insPtr o'.ins (v.ins.map InMeta.fresh) ⋆ LostLe (v.ins.map InMeta.hollowPaths).sum ⋆ MetaArr InMetaAt o.insPtr o.ins v.ins) := by
  unfold takeIns
  have si := MetaArr.stable InMetaAt.stable o.insPtr o.ins v.ins
  by_cases h0 : v.ins = []
  · rw [if_neg (by rw [hn, h0]; simp)]
    refine Does.ret si (fun {h A} a => fact_star.2 ⟨rfl, ?_⟩)
    rw [h0] at a ⊢
    show (emp ⋆ LostLe 0 ⋆ emp) h A
    rw [LostLe.zero_eq, emp_star, emp_star]
    exact a
  · have h1 : 0 < v.ins.length := List.length_pos_iff.2 h0
    rw [if_pos (by omega)]
    refine Does.fromEmp (Does.new.step Stable.emp si fun p => ?_)
    refine Does.comm ?_
    have sp := Stable.block p
    refine MetaArr.copy_step InMetaAt.stable HInMeta.copySome_does o.insPtr o.ins v.ins hw hn sp fun is => ?_
    refine Does.ret (((EachAt.stable InMetaAt.stable _ _).star ((Stable.lostLe _).star si)).star sp) (fun {h A} a => fact_star.2 ⟨rfl, ?_⟩)
    show (MetaArr InMetaAt p is (v.ins.map InMeta.fresh) ⋆ _) h A
    rw [MetaArr.pos (by simpa using h0)]
    have e : (EachAt InMetaAt is (v.ins.map InMeta.fresh) ⋆ LostLe (v.ins.map InMeta.hollowPaths).sum ⋆ MetaArr InMetaAt o.insPtr o.ins v.ins) ⋆ Block p =
      (Block p ⋆ EachAt InMetaAt is (v.ins.map InMeta.fresh)) ⋆ LostLe (v.ins.map InMeta.hollowPaths).sum ⋆ MetaArr InMetaAt o.insPtr o.ins v.ins := by ac_rfl
    rw [e] at a
    exact a

theorem takeOuts_does (self o : HPSBT) (v : PSBT) (hw : ∀ m ∈ v.outs, m.Whole ∧ Derivation.AllReady m.derivations) (hn : self.tx.txOuts.length = v.outs.length) :
    Does (MetaArr OutMetaAt o.outsPtr o.outs v.outs) (takeOuts self o) (fun o' => fact (o' = { self with outsPtr := o'.outsPtr, outs := o'.outs }) ⋆
      MetaArr OutMetaAt o'.outsPtr o'.outs (v.outs.map OutMeta.fresh) ⋆ LostLe (v.outs.map fun m => Derivation.hollows m.derivations).sum ⋆
      MetaArr OutMetaAt o.outsPtr o.outs v.outs) := by
  unfold takeOuts
  have si := MetaArr.stable OutMetaAt.stable o.outsPtr o.outs v.outs
  by_cases h0 : v.outs = []
  · rw [if_neg (by rw [hn, h0]; simp)]
    refine Does.ret si (fun {h A} a => fact_star.2 ⟨rfl, ?_⟩)
    rw [h0] at a ⊢
    show (emp ⋆ LostLe 0 ⋆ emp) h A
    rw [LostLe.zero_eq, emp_star, emp_star]
    exact a
  · have h1 : 0 < v.outs.length := List.length_pos_iff.2 h0
    rw [if_pos (by omega)]
    refine Does.fromEmp (Does.new.step Stable.emp si fun p => ?_)
    refine Does.comm ?_
    have sp := Stable.block p
    refine MetaArr.copy_step OutMetaAt.stable HOutMeta.copy_does o.outsPtr o.outs v.outs hw hn sp fun is => ?_
    refine Does.ret (((EachAt.stable OutMetaAt.stable _ _).star ((Stable.lostLe _).star si)).star sp) (fun {h A} a => fact_star.2 ⟨rfl, ?_⟩)
    show (MetaArr OutMetaAt p is (v.outs.map OutMeta.fresh) ⋆ _) h A
    rw [MetaArr.pos (by simpa using h0)]
    have e : (EachAt OutMetaAt is (v.outs.map OutMeta.fresh) ⋆ LostLe (v.outs.map fun m => Derivation.hollows m.derivations).sum ⋆ MetaArr OutMetaAt o.outsPtr o.outs v.outs) ⋆ Block p =
      (Block p ⋆ EachAt OutMetaAt is (v.outs.map OutMeta.fresh)) ⋆ LostLe (v.outs.map fun m => Derivation.hollows m.derivations).sum ⋆ MetaArr OutMetaAt o.outsPtr o.outs v.outs := by ac_rfl
    rw [e] at a
    exact a

theorem assign_does (self o : HPSBT) (w v : PSBT) (hf : (w.ins.length = w.tx.txIns.length ∧ w.outs.length = w.tx.txOuts.length) ∨ (w.ins = [] ∧ w.outs = []))
    (hr : w.release = .ok ()) (hv : v.Rich) :
    Does (PsbtAt self w ⋆ PsbtAt o v) (self.assign o) (fun o' =>
      PsbtAt o' { w with tx := v.tx.copy, status := v.status, ins := v.ins.map InMeta.fresh, outs := v.outs.map OutMeta.fresh } ⋆ LostLe v.assignLoss ⋆ PsbtAt o v) := by
  unfold assign
  have tk := ScriptAt.stable self.key w.key
  have tv := ScriptAt.stable self.value w.value
  have tc := CTxAt.stable self.tx w.tx
  have ti := MetaArr.stable InMetaAt.stable self.insPtr self.ins w.ins
  have tt := MetaArr.stable OutMetaAt.stable self.outsPtr self.outs w.outs
  have sk := ScriptAt.stable o.key v.key
  have sv := ScriptAt.stable o.value v.value
  have sc := CTxAt.stable o.tx v.tx
  have si := MetaArr.stable InMetaAt.stable o.insPtr o.ins v.ins
  have so := MetaArr.stable OutMetaAt.stable o.outsPtr o.outs v.outs
  refine Does.swap (P := fact (self.status = w.status ∧ self.bytesParsed = w.bytesParsed ∧ self.sec = w.sec ∧ self.lastKeyPos = w.lastKeyPos) ⋆
    fact (o.status = v.status ∧ o.bytesParsed = v.bytesParsed ∧ o.sec = v.sec ∧ o.lastKeyPos = v.lastKeyPos) ⋆
    (CTxAt self.tx w.tx ⋆ MetaArr InMetaAt self.insPtr self.ins w.ins ⋆ MetaArr OutMetaAt self.outsPtr self.outs w.outs) ⋆ (ScriptAt self.key w.key ⋆ ScriptAt self.value w.value ⋆
    CTxAt o.tx v.tx ⋆ MetaArr InMetaAt o.insPtr o.ins v.ins ⋆ MetaArr OutMetaAt o.outsPtr o.outs v.outs ⋆ ScriptAt o.key v.key ⋆ ScriptAt o.value v.value)) ?_ (by unfold PsbtAt PsbtCore; ac_rfl)
  refine Does.fact fun es => Does.fact fun ef => ?_
  have rest := tk.star (tv.star (sc.star (si.star (so.star (sk.star sv)))))
  refine (release_does self w hf hr).step (tc.star (ti.star tt)) rest fun _ => ?_
  refine Does.swap (P := (CTxAt self.tx w.tx ⋆ CTxAt o.tx v.tx) ⋆ (ScriptAt self.key w.key ⋆ ScriptAt self.value w.value ⋆
    MetaArr InMetaAt o.insPtr o.ins v.ins ⋆ MetaArr OutMetaAt o.outsPtr o.outs v.outs ⋆ ScriptAt o.key v.key ⋆ ScriptAt o.value v.value)) ?_ (by ac_rfl)
  refine (HTx.assign_does self.tx o.tx w.tx v.tx (hv.tx.all hv.txDone)).step (tc.star sc) (tk.star (tv.star (si.star (so.star (sk.star sv))))) fun t => ?_
  have stt := CTxAt.stable t v.tx.copy
  have sl := Stable.lostLe v.tx.emptyArrays
  refine Does.know (fun ⟨_, _, ⟨_, _, a, _⟩, _⟩ => HTx.facts a) fun ht => ?_
  have hcnt := Tx.copy_counts v.tx
  refine Does.swap (P := MetaArr InMetaAt o.insPtr o.ins v.ins ⋆ (MetaArr OutMetaAt o.outsPtr o.outs v.outs ⋆ CTxAt t v.tx.copy ⋆ LostLe v.tx.emptyArrays ⋆ CTxAt o.tx v.tx ⋆
    ScriptAt self.key w.key ⋆ ScriptAt self.value w.value ⋆ ScriptAt o.key v.key ⋆ ScriptAt o.value v.value)) ?_ (by ac_rfl)
  have rr := stt.star (sl.star (sc.star (tk.star (tv.star (sk.star sv)))))
  refine (takeIns_does { self with tx := t, status := o.status } o v (fun m hm => ⟨hv.inWhole m hm, hv.inReady m hm⟩)
    (by show t.txIns.length = _; rw [ht.2.1, hcnt.1, hv.ins])).step si (so.star rr) fun x => ?_
  rw [Star.assoc]
  refine Does.fact fun ex => ?_
  have xi := MetaArr.stable InMetaAt.stable x.insPtr x.ins (v.ins.map InMeta.fresh)
  have sl1 := Stable.lostLe (v.ins.map InMeta.hollowPaths).sum
  refine Does.swap (P := MetaArr OutMetaAt o.outsPtr o.outs v.outs ⋆ ((MetaArr InMetaAt x.insPtr x.ins (v.ins.map InMeta.fresh) ⋆ LostLe (v.ins.map InMeta.hollowPaths).sum ⋆
    MetaArr InMetaAt o.insPtr o.ins v.ins) ⋆ CTxAt t v.tx.copy ⋆ LostLe v.tx.emptyArrays ⋆ CTxAt o.tx v.tx ⋆
    ScriptAt self.key w.key ⋆ ScriptAt self.value w.value ⋆ ScriptAt o.key v.key ⋆ ScriptAt o.value v.value)) ?_ (by ac_rfl)
  refine ((takeOuts_does x o v (fun m hm => ⟨hv.outWhole m hm, hv.outReady m hm⟩)
    (by rw [ex]; show t.txOuts.length = _; rw [ht.2.2, hcnt.2, hv.outs])).frame so ((xi.star (sl1.star si)).star rr)).post (fun {y h A} a => ?_)
  rw [Star.assoc, fact_star] at a
  obtain ⟨ey, a⟩ := a
  have e1 : y.key = self.key := by rw [ey, ex]
  have e2 : y.value = self.value := by rw [ey, ex]
  have e3 : y.tx = t := by rw [ey, ex]
  have e4 : y.insPtr = x.insPtr := by rw [ey]
  have e5 : y.ins = x.ins := by rw [ey]
  have e6 : y.status = o.status ∧ y.bytesParsed = self.bytesParsed ∧ y.sec = self.sec ∧ y.lastKeyPos = self.lastKeyPos := by rw [ey, ex]; exact ⟨rfl, rfl, rfl, rfl⟩
  unfold PsbtAt PsbtCore
  rw [fact_true ef, fact_true ⟨e6.1.trans ef.1, e6.2.1.trans es.2.1, e6.2.2.1.trans es.2.2.1, e6.2.2.2.trans es.2.2.2⟩, emp_star, emp_star, e1, e2, e3, e4, e5]
  have e : ∀ (a b c d e f g h i j k l m : HProp), (a ⋆ b ⋆ c) ⋆ (d ⋆ e ⋆ f) ⋆ g ⋆ h ⋆ i ⋆ j ⋆ k ⋆ l ⋆ m = (j ⋆ k ⋆ g ⋆ d ⋆ a) ⋆ ((h ⋆ e) ⋆ b) ⋆ (l ⋆ m ⋆ i ⋆ f ⋆ c) := by
    intros
    ac_rfl
  rw [e] at a
  refine star_mono (fun h => h) (star_mono (fun l => ?_) (fun h => h)) a
  exact LostLe.add (star_mono LostLe.add (fun h => h) l)

end HPSBT

/-! ### Adding a pair -/

namespace PSBT

/-- What `add` leaves alone. -/
theorem add_shape {p q : PSBT} {junk : Bytes} {sec : UInt8} {k v : Script} {r : Int} (h : p.add junk sec k v = .ok (r, q)) :
    q = { p with ins := q.ins, outs := q.outs } ∧ q.ins.length = p.ins.length ∧ q.outs.length = p.outs.length := by
  unfold PSBT.add at h
  split at h
  · cases h; exact ⟨rfl, rfl, rfl⟩
  · obtain ⟨ka, -, h⟩ := C.ok_inv h
    obtain ⟨va, -, h⟩ := C.ok_inv h
    obtain ⟨code, -, h⟩ := C.ok_inv h
    split at h
    · split at h
      · obtain ⟨⟨r', m⟩, -, h⟩ := C.ok_inv h
        cases h
        exact ⟨rfl, by simp, rfl⟩
      · cases h
    · split at h
      · obtain ⟨⟨r', m⟩, -, h⟩ := C.ok_inv h
        cases h
        exact ⟨rfl, rfl, by simp⟩
      · cases h

/-- A pair that is accepted leaves complete metadata. -/
theorem add_rich {p q : PSBT} {junk : Bytes} {sec : UInt8} {k v : Script} {r : Int} (h : p.add junk sec k v = .ok (r, q)) (hr : 0 ≤ r) (hv : v.Fits) (hp : p.Rich) : q.Rich := by
  have hs := (add_sane h hr hp.toSane).1
  have htx : q.tx = p.tx := by rw [(add_shape h).1]
  refine ⟨hs, by rw [htx]; exact hp.tx, by rw [htx]; exact hp.txDone, ?_, ?_⟩
  all_goals
    unfold PSBT.add at h
    split at h
    · cases h; first | exact hp.inWhole | exact hp.outWhole
    · obtain ⟨ka, -, h⟩ := C.ok_inv h
      obtain ⟨va, ev, h⟩ := C.ok_inv h
      obtain ⟨code, -, h⟩ := C.ok_inv h
      rw [Script.ser_fits hv] at ev
      injection ev with ev
      subst ev
      have hd : (v.arr.take v.scriptLen).length < 2 ^ 64 := by
        have := hv.2
        simp only [List.length_take]
        omega
      split at h
      · split at h
        · rename_i m i hm hi
          obtain ⟨⟨r', m'⟩, e, h⟩ := C.ok_inv h
          cases h
          first
          | exact hp.outWhole
          | intro x hx
            rcases List.mem_or_eq_of_mem_set hx with hx | rfl
            · exact hp.inWhole x hx
            · exact InMeta.add_whole hd e hr (hp.inWhole m (List.mem_of_getElem? hm))
        · cases h
      · split at h
        · rename_i m hm
          obtain ⟨⟨r', m'⟩, e, h⟩ := C.ok_inv h
          cases h
          first
          | exact hp.inWhole
          | intro x hx
            rcases List.mem_or_eq_of_mem_set hx with hx | rfl
            · exact hp.outWhole x hx
            · exact OutMeta.add_whole hd e (hp.outWhole m (List.mem_of_getElem? hm))
        · cases h

end PSBT

theorem HTx.inAt {o : HTx} {v : Tx} {h : Heap} {A : Finset Nat} (a : CTxAt o v h A) {k : Nat} {vi : TxIn} (hv : v.txIns[k]? = some vi) :
    (∃ i, o.txIns[k]? = some i ∧ i.hash = vi.hash ∧ i.outputIndex = vi.outputIndex) ∧ h.access o.inPtr o.txIns.length = .ok () := by
  obtain ⟨u, ⟨eo, eu, A1, A2, h1, h2, -⟩, -⟩ := a
  refine ⟨?_, h1.access⟩
  obtain ⟨A', e, -⟩ := h1.each
  rw [eu, List.getElem?_map, Option.map_eq_some_iff] at hv
  obtain ⟨⟨vi', b⟩, hu, rfl⟩ := hv
  obtain ⟨i, hi⟩ := e.lookup hu
  refine ⟨i, hi, ?_⟩
  rw [EachAt.split k hi hu] at e
  obtain ⟨_, _, ⟨ei, -⟩, -⟩ := e
  rw [ei]
  exact ⟨rfl, rfl⟩

namespace HPSBT

theorem add_does (junk : Bytes) (o : HPSBT) (v q : PSBT) (sec : UInt8) (k w : HScript) (kv wv : Script) (r : Int) (hk : kv.status = .done) (hw : wv.status = .done) (hv : v.Rich)
    (e : v.add junk sec kv wv = .ok (r, q)) :
    Does (ScriptAt k kv ⋆ ScriptAt w wv ⋆ PsbtCore o v) (o.add junk sec k w) (fun x => fact (x.1 = r ∧ x.2.key = o.key ∧ x.2.value = o.value ∧ (0 ≤ r → q.Rich)) ⋆
      (ScriptAt k kv ⋆ ScriptAt w wv ⋆ PsbtCore x.2 q) ⋆ LostLe (v.addLoss junk sec kv wv)) := by
  have sk := ScriptAt.stable k kv
  have sw := ScriptAt.stable w wv
  have sc := PsbtCore.stable o v
  refine Does.know (fun ⟨_, _, a, ⟨_, _, b, _⟩, _⟩ => (⟨a.2.2.1, b.2.2.1⟩ : kv.Sized ∧ wv.Sized)) fun hz => ?_
  have hr : 0 ≤ r → q.Rich := fun hr => PSBT.add_rich e hr (hz.2.fits hw) hv
  refine Does.know (fun ⟨_, _, _, ⟨_, _, _, ⟨_, _, _, ⟨_, _, c, _⟩, _⟩, _⟩, _⟩ => HTx.facts c) fun ht => ?_
  unfold add
  unfold PSBT.addLoss
  unfold PSBT.add at e
  rw [ht.2.1, ht.2.2]
  by_cases hg : sec = 0 ∨ sec.toNat > 1 + v.tx.txIns.length + v.tx.txOuts.length
  · rw [if_pos hg] at e ⊢
    rw [if_pos hg]
    injection e with e
    injection e with e1 e2
    subst e1 e2
    refine Does.ret (sk.star (sw.star sc)) (fun {h A} a => fact_star.2 ⟨⟨rfl, rfl, rfl, hr⟩, ?_⟩)
    rw [LostLe.zero_eq, star_emp]
    exact a
  rw [if_neg hg] at e ⊢
  rw [if_neg hg]
  obtain ⟨ka, eka, e⟩ := C.ok_inv e
  obtain ⟨va, eva, e⟩ := C.ok_inv e
  obtain ⟨code, ec, e⟩ := C.ok_inv e
  rw [eka, eva]
  dsimp only
  rw [ec]
  dsimp only
  refine Does.fromEmp (Does.new.step Stable.emp (sk.star (sw.star sc)) fun kp => ?_)
  have s1 := Stable.block kp
  refine Does.swap (P := ScriptAt k kv ⋆ (Block kp ⋆ ScriptAt w wv ⋆ PsbtCore o v)) ?_ (by ac_rfl)
  refine (Does.look sk (fun wf a => HScript.load_at wf a hk)).step sk (s1.star (sw.star sc)) fun kv' => ?_
  rw [Star.assoc]
  refine Does.fact fun ek => ?_
  rw [ek]
  refine Does.fromEmp ((Does.lift eka).step Stable.emp (sk.star (s1.star (sw.star sc))) fun ka' => Does.fact fun ek => ?_)
  rw [ek]
  refine Does.fromEmp (Does.new.step Stable.emp (sk.star (s1.star (sw.star sc))) fun vp => ?_)
  have s2 := Stable.block vp
  refine Does.swap (P := ScriptAt w wv ⋆ (ScriptAt k kv ⋆ Block kp ⋆ Block vp ⋆ PsbtCore o v)) ?_ (by ac_rfl)
  have rest := sk.star (s1.star (s2.star sc))
  refine (Does.look sw (fun wf a => HScript.load_at wf a hw)).step sw rest fun wv' => ?_
  rw [Star.assoc]
  refine Does.fact fun ew => ?_
  rw [ew]
  refine Does.fromEmp ((Does.lift eva).step Stable.emp (sw.star rest) fun va' => Does.fact fun ew => ?_)
  rw [ew]
  refine Does.fromEmp ((Does.lift ec).step Stable.emp (sw.star rest) fun c' => Does.fact fun ec' => ?_)
  rw [ec']
  have tc := CTxAt.stable o.tx v.tx
  have ti := MetaArr.stable InMetaAt.stable o.insPtr o.ins v.ins
  have tt := MetaArr.stable OutMetaAt.stable o.outsPtr o.outs v.outs
  unfold PsbtCore
  refine Does.swap (P := fact (o.status = v.status ∧ o.bytesParsed = v.bytesParsed ∧ o.sec = v.sec ∧ o.lastKeyPos = v.lastKeyPos) ⋆
    (MetaArr InMetaAt o.insPtr o.ins v.ins ⋆ MetaArr OutMetaAt o.outsPtr o.outs v.outs ⋆ CTxAt o.tx v.tx ⋆ ScriptAt k kv ⋆ ScriptAt w wv ⋆ Block kp ⋆ Block vp)) ?_ (by ac_rfl)
  refine Does.fact fun ef => ?_
  have r0 := tc.star (sk.star (sw.star (s1.star s2)))
  by_cases hi : sec.toNat < 1 + v.tx.txIns.length
  · rw [if_pos hi] at e ⊢
    rw [if_pos hi]
    split at e
    · rename_i m i em ei
      rw [em, ei]
      dsimp only
      obtain ⟨⟨r', m'⟩, e0, e⟩ := C.ok_inv e
      rw [e0]
      dsimp only
      injection e with e
      injection e with e1 e2
      subst e1 e2
      have hn : v.ins ≠ [] := by intro h0; rw [h0] at em; simp at em
      refine (MetaArr.access_does InMetaAt.stable (fun _ => hn)).step ti (tt.star r0) fun _ => ?_
      refine Does.know (fun ⟨_, _, a, _⟩ => (a.lookup em).1) fun hl => ?_
      refine Does.know (fun ⟨_, _, a, _⟩ => (a.lookup em).2.2) fun ⟨om, eom⟩ => ?_
      refine Does.know (fun ⟨_, _, _, ⟨_, _, _, ⟨_, _, c, _⟩, _⟩, _⟩ => (HTx.inAt c ei).1) fun ⟨oi, eoi, ho1, ho2⟩ => ?_
      refine Does.swap (P := CTxAt o.tx v.tx ⋆ (MetaArr InMetaAt o.insPtr o.ins v.ins ⋆ MetaArr OutMetaAt o.outsPtr o.outs v.outs ⋆ ScriptAt k kv ⋆ ScriptAt w wv ⋆ Block kp ⋆ Block vp)) ?_ (by ac_rfl)
      have r1 := sk.star (sw.star (s1.star s2))
      refine (Does.look tc (a := ()) (fun _ c => ?_)).step tc (ti.star (tt.star r1)) fun _ => ?_
      · have := (HTx.inAt c ei).2
        rw [ht.2.1] at this
        exact this
      rw [Star.assoc]
      refine Does.fact fun _ => ?_
      rw [eom, eoi]
      dsimp only
      rw [MetaArr.split eom em]
      have tm := InMetaAt.stable om m
      have tb := (Stable.block o.insPtr).star (EachAt.stable InMetaAt.stable (o.ins.eraseIdx (sec.toNat - 1)) (v.ins.eraseIdx (sec.toNat - 1)))
      have r2 := tb.star (tt.star (tc.star r1))
      refine Does.swap (P := InMetaAt om m ⋆ ((Block o.insPtr ⋆ EachAt InMetaAt (o.ins.eraseIdx (sec.toNat - 1)) (v.ins.eraseIdx (sec.toNat - 1))) ⋆ MetaArr OutMetaAt o.outsPtr o.outs v.outs ⋆
        CTxAt o.tx v.tx ⋆ ScriptAt k kv ⋆ ScriptAt w wv ⋆ Block kp ⋆ Block vp)) ?_ (by ac_rfl)
      refine (HInMeta.add_does junk om m m' oi i code ka va r' (hv.inWhole m (List.mem_of_getElem? em)) ho1 ho2 e0).step tm r2 fun x => ?_
      rw [Star.assoc]
      refine Does.fact fun ex => ?_
      obtain ⟨xr, om'⟩ := x
      dsimp only at ex ⊢
      subst ex
      have tm' := InMetaAt.stable om' m'
      have tl := Stable.lostLe (m.losses m' code ka va)
      refine Does.swap (P := Block kp ⋆ (Block vp ⋆ InMetaAt om' m' ⋆ LostLe (m.losses m' code ka va) ⋆ (Block o.insPtr ⋆ EachAt InMetaAt (o.ins.eraseIdx (sec.toNat - 1)) (v.ins.eraseIdx (sec.toNat - 1))) ⋆
        MetaArr OutMetaAt o.outsPtr o.outs v.outs ⋆ CTxAt o.tx v.tx ⋆ ScriptAt k kv ⋆ ScriptAt w wv)) ?_ (by ac_rfl)
      have r3 := tm'.star (tl.star (tb.star (tt.star (tc.star (sk.star sw)))))
      refine Does.free.step s1 (s2.star r3) fun _ => ?_
      rw [emp_star]
      refine Does.free.step s2 r3 fun _ => ?_
      rw [emp_star]
      refine Does.ret r3 (fun {h A} a => fact_star.2 ⟨⟨rfl, rfl, rfl, hr⟩, ?_⟩)
      rw [fact_true ef, emp_star]
      have hlt : sec.toNat - 1 < v.ins.length := (List.getElem?_eq_some_iff.1 em).1
      show ((ScriptAt k kv ⋆ ScriptAt w wv ⋆ CTxAt o.tx v.tx ⋆ MetaArr InMetaAt o.insPtr (o.ins.set (sec.toNat - 1) om') (v.ins.set (sec.toNat - 1) m') ⋆
        MetaArr OutMetaAt o.outsPtr o.outs v.outs) ⋆ _) h A
      rw [← MetaArr.unsplit om' m' (by rw [hl]; exact hlt) hlt]
      refine cast (congrFun (congrFun ?_ h) A) a
      ac_rfl
    · cases e
  · rw [if_neg hi] at e ⊢
    rw [if_neg hi]
    split at e
    · rename_i m em
      rw [em]
      dsimp only
      obtain ⟨⟨r', m'⟩, e0, e⟩ := C.ok_inv e
      rw [e0]
      dsimp only
      injection e with e
      injection e with e1 e2
      subst e1 e2
      have hn : v.outs ≠ [] := by intro h0; rw [h0] at em; simp at em
      refine Does.swap (P := MetaArr OutMetaAt o.outsPtr o.outs v.outs ⋆ (MetaArr InMetaAt o.insPtr o.ins v.ins ⋆ CTxAt o.tx v.tx ⋆ ScriptAt k kv ⋆ ScriptAt w wv ⋆ Block kp ⋆ Block vp)) ?_ (by ac_rfl)
      refine (MetaArr.access_does OutMetaAt.stable (fun _ => hn)).step tt (ti.star r0) fun _ => ?_
      refine Does.know (fun ⟨_, _, a, _⟩ => (a.lookup em).1) fun hl => ?_
      refine Does.know (fun ⟨_, _, a, _⟩ => (a.lookup em).2.2) fun ⟨om, eom⟩ => ?_
      rw [eom]
      dsimp only
      rw [MetaArr.split eom em]
      have tm := OutMetaAt.stable om m
      have tb := (Stable.block o.outsPtr).star (EachAt.stable OutMetaAt.stable (o.outs.eraseIdx (sec.toNat - 1 - v.tx.txIns.length)) (v.outs.eraseIdx (sec.toNat - 1 - v.tx.txIns.length)))
      have r2 := tb.star (ti.star r0)
      rw [Star.assoc]
      refine (HOutMeta.add_does junk om m m' code ka va r' e0).step tm r2 fun x => ?_
      rw [Star.assoc]
      refine Does.fact fun ex => ?_
      obtain ⟨b, xr, om'⟩ := x
      dsimp only at ex ⊢
      obtain ⟨rfl, rfl⟩ := ex
      have tm' := OutMetaAt.stable om' m'
      have tl := Stable.lostLe (Derivation.added m.derivations m'.derivations)
      have hlt : sec.toNat - 1 - v.tx.txIns.length < v.outs.length := (List.getElem?_eq_some_iff.1 em).1
      by_cases hb : HOutMeta.frees code ka = true
      · rw [if_pos hb, if_pos hb]
        refine Does.swap (P := Block kp ⋆ (Block vp ⋆ OutMetaAt om' m' ⋆ LostLe (Derivation.added m.derivations m'.derivations) ⋆
          (Block o.outsPtr ⋆ EachAt OutMetaAt (o.outs.eraseIdx (sec.toNat - 1 - v.tx.txIns.length)) (v.outs.eraseIdx (sec.toNat - 1 - v.tx.txIns.length))) ⋆
          MetaArr InMetaAt o.insPtr o.ins v.ins ⋆ CTxAt o.tx v.tx ⋆ ScriptAt k kv ⋆ ScriptAt w wv)) ?_ (by ac_rfl)
        have r3 := tm'.star (tl.star (tb.star (ti.star (tc.star (sk.star sw)))))
        refine Does.free.step s1 (s2.star r3) fun _ => ?_
        rw [emp_star]
        refine Does.free.step s2 r3 fun _ => ?_
        rw [emp_star]
        refine Does.ret r3 (fun {h A} a => fact_star.2 ⟨⟨rfl, rfl, rfl, hr⟩, ?_⟩)
        rw [fact_true ef, emp_star]
        show ((ScriptAt k kv ⋆ ScriptAt w wv ⋆ CTxAt o.tx v.tx ⋆ MetaArr InMetaAt o.insPtr o.ins v.ins ⋆
          MetaArr OutMetaAt o.outsPtr (o.outs.set (sec.toNat - 1 - v.tx.txIns.length) om') (v.outs.set (sec.toNat - 1 - v.tx.txIns.length) m')) ⋆
          LostLe (Derivation.added m.derivations m'.derivations)) h A
        rw [← MetaArr.unsplit om' m' (by rw [hl]; exact hlt) hlt]
        refine cast (congrFun (congrFun ?_ h) A) a
        ac_rfl
      · rw [if_neg hb, if_neg hb]
        refine Does.ret ((tm'.star tl).star r2) (fun {h A} a => fact_star.2 ⟨⟨rfl, rfl, rfl, hr⟩, ?_⟩)
        rw [fact_true ef, emp_star]
        show ((ScriptAt k kv ⋆ ScriptAt w wv ⋆ CTxAt o.tx v.tx ⋆ MetaArr InMetaAt o.insPtr o.ins v.ins ⋆
          MetaArr OutMetaAt o.outsPtr (o.outs.set (sec.toNat - 1 - v.tx.txIns.length) om') (v.outs.set (sec.toNat - 1 - v.tx.txIns.length) m')) ⋆
          LostLe (Derivation.added m.derivations m'.derivations + 2)) h A
        rw [← MetaArr.unsplit om' m' (by rw [hl]; exact hlt) hlt]
        have e' : ∀ (M L B I T K W p q : HProp), (M ⋆ L) ⋆ B ⋆ I ⋆ T ⋆ K ⋆ W ⋆ p ⋆ q = (K ⋆ W ⋆ T ⋆ I ⋆ M ⋆ B) ⋆ (L ⋆ (p ⋆ q)) := by
          intros; ac_rfl
        rw [e'] at a
        exact star_mono (fun h => h) (fun l => LostLe.add (star_mono (fun h => h) (fun b => LostLe.add (star_mono Block.lostLe Block.lostLe b)) l)) a
    · cases e

end HPSBT
end UB
