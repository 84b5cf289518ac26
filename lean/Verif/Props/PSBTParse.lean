import Verif.Lemmas.PSBTComplete

/-
C56 previous transactions, C57 (parsing) PSBTs.
-/

namespace UB
open Spec

/-! ### C57: parsing -/

/-- A PSBT with the fields the library knows: the unsigned transaction, other global pairs, the fields of every input and every output. -/
structure Spec.PsbtDoc where
  tx : Transaction
  globals : List Pair
  ins : List (List InField)
  outs : List (List OutField)

/-- The bytes of BIP 174. -/
def Spec.PsbtDoc.bytes (d : PsbtDoc) : Bytes :=
  psbtBytes (txBytes d.tx) d.globals (d.ins.map (·.map InField.pair) ++ d.outs.map (·.map OutField.pair))

/-- Documents inside the limits of the library. -/
structure Spec.PsbtDoc.Ok (d : PsbtDoc) : Prop where
  wire : WireTx d.tx
  nonempty : d.tx.ins ≠ []
  nIns : d.tx.ins.length < 253
  nOuts : d.tx.outs.length < 253
  count : d.tx.ins.length + d.tx.outs.length ≤ 254
  size : (txBytes d.tx).length < 2 ^ 31
  exact : misread (txBytes d.tx).length = 0
  globals : ∀ q ∈ d.globals, q.1 ≠ [] ∧ q.1.length < 2 ^ 31 ∧ q.2.length < 2 ^ 31
  ins : List.Forall₂ (fun (i : In) (fs : List InField) => (∀ f ∈ fs, f.Ok i.prevHash i.prevIndex) ∧
    (fs.filterMap InField.sig).length ≤ 255 ∧ (fs.filterMap InField.key).length ≤ 255) d.tx.ins d.ins
  outs : d.outs.length = d.tx.outs.length
  fields : ∀ fs ∈ d.outs, (∀ f ∈ fs, f.Ok) ∧ (fs.filterMap OutField.key).length ≤ 255

/-- The object holds the document. -/
structure PSBT.Holds (p : PSBT) (d : PsbtDoc) : Prop where
  tx : p.tx.Holds d.tx
  ins : List.Forall₂ (fun (x : In × List InField) (m : InMeta) => m.Holds x.1.prevIndex x.2) (d.tx.ins.zip d.ins) p.ins
  outs : List.Forall₂ (fun (fs : List OutField) (m : OutMeta) => m.Holds fs) d.outs p.outs

theorem Derivation.all_ready {ds : List Derivation} {os : List KeyOrigin} (h : List.Forall₂ Derivation.Holds ds os) : ds.all (·.ready) = true := by
  rw [List.all_eq_true]
  intro d hd
  induction h with
  | nil => simp at hd
  | cons h1 _ ih =>
    rcases List.mem_cons.mp hd with rfl | hd
    · exact h1.ready
    · exact ih hd

/-- Metadata that holds fields can be released. -/
theorem PSBT.Holds.release {p : PSBT} {d : PsbtDoc} (h : p.Holds d) (hd : d.Ok) : p.release = .ok () := by
  have h1 := h.ins.length_eq
  rw [List.length_zip, ← hd.ins.length_eq, Nat.min_self] at h1
  have h2 := h.outs.length_eq
  have h3 := h.tx.ins.length_eq
  have h4 := h.tx.outs.length_eq
  have h5 := hd.outs
  unfold PSBT.release
  rw [if_pos]
  refine ⟨by omega, by omega, ?_, ?_⟩
  · rw [List.all_eq_true]
    intro m hm
    obtain ⟨i, hi, rfl⟩ := List.getElem_of_mem (List.mem_of_mem_take hm)
    have := (List.forall₂_iff_get.mp h.ins).2 i (by rw [(List.forall₂_iff_get.mp h.ins).1]; exact hi) hi
    exact Derivation.all_ready this.keys
  · rw [List.all_eq_true]
    intro m hm
    obtain ⟨i, hi, rfl⟩ := List.getElem_of_mem (List.mem_of_mem_take hm)
    have := (List.forall₂_iff_get.mp h.outs).2 i (by rw [(List.forall₂_iff_get.mp h.outs).1]; exact hi) hi
    exact Derivation.all_ready this.keys

theorem InSafe.forall {ι : Type} [hn : Nonempty ι] {ti : TxIn} {P : ι → InMeta → Prop} : ∀ {ps : List Pair} {m : InMeta}, (∀ i, InSafe ti (P i) m ps) →
    InSafe ti (fun m => ∀ i, P i m) m ps
  | [], _, h => h
  | (k, v) :: ps, m, h => by
    obtain ⟨i0⟩ := hn
    obtain ⟨code, hc, h0⟩ := h i0
    refine ⟨code, hc, fun junk => ?_⟩
    obtain ⟨r, m', e, hr, -⟩ := h0 junk
    refine ⟨r, m', e, hr, InSafe.forall (hn := ⟨i0⟩) fun i => ?_⟩
    obtain ⟨code', hc', h1⟩ := h i
    rw [hc] at hc'
    cases hc'
    obtain ⟨r', m'', e', -, h2⟩ := h1 junk
    rw [e] at e'
    cases e'
    exact h2

theorem OutSafe.forall {ι : Type} [hn : Nonempty ι] {P : ι → OutMeta → Prop} : ∀ {ps : List Pair} {m : OutMeta}, (∀ i, OutSafe (P i) m ps) →
    OutSafe (fun m => ∀ i, P i m) m ps
  | [], _, h => h
  | (k, v) :: ps, m, h => by
    obtain ⟨i0⟩ := hn
    obtain ⟨code, hc, h0⟩ := h i0
    refine ⟨code, hc, fun junk => ?_⟩
    obtain ⟨r, m', e, hr, -⟩ := h0 junk
    refine ⟨r, m', e, hr, OutSafe.forall (hn := ⟨i0⟩) fun i => ?_⟩
    obtain ⟨code', hc', h1⟩ := h i
    rw [hc] at hc'
    cases hc'
    obtain ⟨r', m'', e', -, h2⟩ := h1 junk
    rw [e] at e'
    cases e'
    exact h2

/-- Fields of an input that are inside the limits. -/
def Spec.InOk (id : Bytes) (n : Nat) (fs : List InField) : Prop :=
  (∀ f ∈ fs, f.Ok id n) ∧ (fs.filterMap InField.sig).length ≤ 255 ∧ (fs.filterMap InField.key).length ≤ 255

def Spec.OutOk (fs : List OutField) : Prop := (∀ f ∈ fs, f.Ok) ∧ (fs.filterMap OutField.key).length ≤ 255

theorem InMeta.safe_all (ti : TxIn) (fs : List InField) (h : InOk ti.hash ti.outputIndex.toNat fs) : (∀ q ∈ fs.map InField.pair, PSBT.GoodPair q) ∧
    InSafe ti (fun m => ∀ gs, gs.map InField.pair = fs.map InField.pair → InOk ti.hash ti.outputIndex.toNat gs → m.Inv ti.outputIndex.toNat gs) {} (fs.map InField.pair) := by
  refine ⟨(InMeta.safe ti fs [] {} (InMeta.inv_fresh _) h.1 h.2.1 h.2.2).1, ?_⟩
  have := InSafe.forall (ι := { gs : List InField // gs.map InField.pair = fs.map InField.pair ∧ InOk ti.hash ti.outputIndex.toNat gs }) (hn := ⟨⟨fs, rfl, h⟩⟩)
    (P := fun gs m => m.Inv ti.outputIndex.toNat gs.1) (ti := ti) (m := {}) (ps := fs.map InField.pair) (by
      rintro ⟨gs, e, hg⟩
      dsimp only
      rw [← e]
      exact (InMeta.safe ti gs [] {} (InMeta.inv_fresh _) hg.1 hg.2.1 hg.2.2).2)
  simpa only [Subtype.forall, and_imp] using this

theorem OutMeta.safe_all (fs : List OutField) (h : OutOk fs) : (∀ q ∈ fs.map OutField.pair, PSBT.GoodPair q) ∧
    OutSafe (fun m => ∀ gs, gs.map OutField.pair = fs.map OutField.pair → OutOk gs → m.Inv gs) {} (fs.map OutField.pair) := by
  refine ⟨(OutMeta.safe fs [] {} OutMeta.inv_fresh h.1 h.2).1, ?_⟩
  have := OutSafe.forall (ι := { gs : List OutField // gs.map OutField.pair = fs.map OutField.pair ∧ OutOk gs }) (hn := ⟨⟨fs, rfl, h⟩⟩)
    (P := fun gs m => m.Inv gs.1) (m := {}) (ps := fs.map OutField.pair) (by
      rintro ⟨gs, e, hg⟩
      dsimp only
      rw [← e]
      exact (OutMeta.safe gs [] {} OutMeta.inv_fresh hg.1 hg.2).2)
  simpa only [Subtype.forall, and_imp] using this

/-- C57, parsing: every document inside the limits is read from its bytes, whatever follows them, into any object that is not in the middle of
a parse, and the object then holds the document.  Missing: documents outside the limits, for which it is false (see the theorems below). -/
theorem C57_parse_partial (junk : Nat → Bytes) {p : PSBT} (hp : p.Clean) (d : PsbtDoc) (hd : d.Ok) (rest : Bytes) :
    (PSBT.fromStream junk p (.of (d.bytes ++ rest))).1.status = .done ∧ (PSBT.fromStream junk p (.of (d.bytes ++ rest))).1.Holds d ∧
    (PSBT.fromStream junk p (.of (d.bytes ++ rest))).2.1 = d.bytes.length ∧ (PSBT.fromStream junk p (.of (d.bytes ++ rest))).2.2 = .of rest ∧
    (PSBT.fromStream junk p (.of (d.bytes ++ rest))).1.release = .ok () := by
  have hrd := readTx_complete d.tx hd.wire hd.nonempty hd.nIns hd.nOuts []
  rw [List.append_nil] at hrd
  have hfe := Tx.feed p.txStart [] (txBytes d.tx) (Or.inl ⟨rfl, rfl⟩)
  unfold Tx.Out at hfe
  rw [List.nil_append, hrd] at hfe
  obtain ⟨g1, g2, -⟩ := hfe
  generalize htt : (p.txStart.fromStream (.of (txBytes d.tx))).1 = t at g1 g2
  have hli := g2.ins.length_eq
  have hlo := g2.outs.length_eq
  have hil := hd.ins.length_eq
  have hol := hd.outs
  have hcnt := hd.count
  have hi2 := List.forall₂_iff_get.mp g2.ins
  have hi3 := List.forall₂_iff_get.mp hd.ins
  have hok : ∀ i (h1 : i < t.txIns.length) (h2 : i < d.ins.length), InOk t.txIns[i].hash t.txIns[i].outputIndex.toNat d.ins[i] := by
    intro i h1 h2
    have e1 := hi2.2 i h1 (by omega)
    have e2 := hi3.2 i (by omega) h2
    simp only [List.get_eq_getElem] at e1 e2
    rw [← e1.body.hash, ← e1.body.index] at e2
    exact e2
  obtain ⟨A, B, hacc, hA, hB, hC⟩ := PSBT.accepts_of_safe junk p (txBytes d.tx) d.globals (d.ins.map (·.map InField.pair)) (d.outs.map (·.map OutField.pair)) t
    (fun ti ps m => ∀ gs, gs.map InField.pair = ps → InOk ti.hash ti.outputIndex.toNat gs → m.Inv ti.outputIndex.toNat gs)
    (fun ps m => ∀ gs, gs.map OutField.pair = ps → OutOk gs → m.Inv gs)
    hd.size (by rw [hd.exact, List.drop_zero, htt]) g1 (by omega) hd.globals
    (by
      rw [List.forall₂_iff_get]
      refine ⟨by rw [List.length_map]; omega, fun i h1 h2 => ?_⟩
      rw [List.length_map] at h2
      simp only [List.get_eq_getElem, List.getElem_map]
      exact InMeta.safe_all _ _ (hok i h1 h2))
    (by rw [List.length_map]; omega)
    (by
      intro m hm
      obtain ⟨fs, hfs, rfl⟩ := List.mem_map.mp hm
      exact OutMeta.safe_all fs (hd.fields fs hfs))
  have hpar := PSBT.parse_complete junk hp hacc rest
  have ebs : d.bytes ++ rest = psbtMagic ++ pairBytes ([0], txBytes d.tx) ++ mapsBytes (d.globals :: (d.ins.map (·.map InField.pair) ++ d.outs.map (·.map OutField.pair))) ++ rest := by
    unfold PsbtDoc.bytes psbtBytes mapsBytes
    rw [List.flatMap_cons]
    simp only [List.append_assoc]
  have ebl : d.bytes = psbtMagic ++ pairBytes ([0], txBytes d.tx) ++ mapsBytes (d.globals :: (d.ins.map (·.map InField.pair) ++ d.outs.map (·.map OutField.pair))) := by
    unfold PsbtDoc.bytes psbtBytes mapsBytes
    rw [List.flatMap_cons]
    simp only [List.append_assoc]
  rw [← ebs, ← ebl] at hpar
  have hh : (PSBT.fromStream junk p (.of (d.bytes ++ rest))).1.Holds d := by
    refine ⟨?_, ?_, ?_⟩
    · rw [hpar.tx]; exact g2
    · rw [hpar.ins, List.forall₂_iff_get]
      rw [List.forall₂_iff_get] at hB
      obtain ⟨b1, b2⟩ := hB
      simp only [List.length_zip, List.length_map] at b1 b2 ⊢
      refine ⟨by omega, fun i h1 h2 => ?_⟩
      have := b2 i (by omega) h2
      simp only [List.get_eq_getElem, List.getElem_zip, List.getElem_map] at this ⊢
      have e1 := (hi2.2 i (by omega) (by omega)).body.index
      simp only [List.get_eq_getElem] at e1
      rw [← e1]
      exact (this d.ins[i] rfl (hok i (by omega) (by omega))).holds
    · rw [hpar.outs, List.forall₂_iff_get]
      rw [List.forall₂_iff_get] at hC
      obtain ⟨b1, b2⟩ := hC
      simp only [List.length_map] at b1 b2 ⊢
      refine ⟨b1, fun i h1 h2 => ?_⟩
      have := b2 i h1 h2
      simp only [List.get_eq_getElem, List.getElem_map] at this ⊢
      exact (this d.outs[i] rfl (hd.fields _ (List.getElem_mem _))).holds
  exact ⟨hpar.status, hh, hpar.read, hpar.stream, hh.release hd⟩

/-! ### C56 -/

theorem varBytes_inj {a b x y : Bytes} (ha : a.length < 2 ^ 31) (hb : b.length < 2 ^ 31) (h : varBytes a ++ x = varBytes b ++ y) : a = b ∧ x = y := by
  have h1 := readVar_varBytes a x ha
  rw [h, readVar_varBytes b y hb] at h1
  cases h1
  exact ⟨rfl, rfl⟩

theorem varBytes_ne_zero {k x y : Bytes} (hk : k.length < 2 ^ 31) (h0 : k ≠ []) : varBytes k ++ x ≠ 0 :: y := by
  intro h
  have := varBytes_inj (b := []) (y := y) hk (by decide) h
  exact h0 this.1

/-- A map can be read in one way only. -/
theorem mapBytes_inj : ∀ {a b : List Pair} {x y : Bytes}, (∀ q ∈ a, PSBT.GoodPair q) → (∀ q ∈ b, PSBT.GoodPair q) → mapBytes a ++ x = mapBytes b ++ y → a = b ∧ x = y
  | [], [], x, y, _, _, h => by
    unfold mapBytes at h
    simpa using h
  | [], (k, v) :: b, x, y, _, hb, h => by
    have hg := hb (k, v) (List.mem_cons_self ..)
    unfold mapBytes at h
    rw [List.flatMap_cons] at h
    unfold pairBytes at h
    simp only [List.flatMap_nil, List.nil_append, List.cons_append, List.append_assoc] at h
    exact absurd h.symm (varBytes_ne_zero hg.2.1 hg.1)
  | (k, v) :: a, [], x, y, ha, _, h => by
    have hg := ha (k, v) (List.mem_cons_self ..)
    unfold mapBytes at h
    rw [List.flatMap_cons] at h
    unfold pairBytes at h
    simp only [List.flatMap_nil, List.nil_append, List.cons_append, List.append_assoc] at h
    exact absurd h (varBytes_ne_zero hg.2.1 hg.1)
  | (k, v) :: a, (k', v') :: b, x, y, ha, hb, h => by
    have hg := ha (k, v) (List.mem_cons_self ..)
    have hg' := hb (k', v') (List.mem_cons_self ..)
    unfold mapBytes at h
    rw [List.flatMap_cons, List.flatMap_cons] at h
    unfold pairBytes at h
    simp only [List.append_assoc] at h
    obtain ⟨e1, h⟩ := varBytes_inj hg.2.1 hg'.2.1 h
    obtain ⟨e2, h⟩ := varBytes_inj hg.2.2 hg'.2.2 h
    have h' : mapBytes a ++ x = mapBytes b ++ y := by
      unfold mapBytes pairBytes
      simpa only [List.append_assoc] using h
    obtain ⟨e3, e4⟩ := mapBytes_inj (fun q hq => ha q (List.mem_cons_of_mem _ hq)) (fun q hq => hb q (List.mem_cons_of_mem _ hq)) h'
    exact ⟨by rw [show k = k' from e1, show v = v' from e2, e3], e4⟩

theorem mapsBytes_inj : ∀ {a b : List (List Pair)} {x y : Bytes}, a.length = b.length → (∀ m ∈ a, ∀ q ∈ m, PSBT.GoodPair q) → (∀ m ∈ b, ∀ q ∈ m, PSBT.GoodPair q) →
    mapsBytes a ++ x = mapsBytes b ++ y → a = b ∧ x = y
  | [], [], x, y, _, _, _, h => ⟨rfl, h⟩
  | [], _ :: _, _, _, hl, _, _, _ => by simp at hl
  | _ :: _, [], _, _, hl, _, _, _ => by simp at hl
  | m :: a, m' :: b, x, y, hl, ha, hb, h => by
    unfold mapsBytes at h
    rw [List.flatMap_cons, List.flatMap_cons, List.append_assoc, List.append_assoc] at h
    obtain ⟨e1, h⟩ := mapBytes_inj (ha m (List.mem_cons_self ..)) (hb m' (List.mem_cons_self ..)) h
    obtain ⟨e2, e3⟩ := mapsBytes_inj (by simpa using hl) (fun q hq => ha q (List.mem_cons_of_mem _ hq)) (fun q hq => hb q (List.mem_cons_of_mem _ hq)) h
    exact ⟨by rw [e1, e2], e3⟩

/-- The bytes of a PSBT with given maps, one for the other global pairs and one for every input and output; nothing is assumed about the
values. -/
structure Spec.Maps (vb : Bytes) (maps : List (List Pair)) (t : Tx) : Prop where
  size : vb.length < 2 ^ 31
  sections : maps.length = 1 + t.txIns.length + t.txOuts.length
  few : t.txIns.length + t.txOuts.length ≤ 254
  good : ∀ m ∈ maps, ∀ q ∈ m, q.1 ≠ [] ∧ q.1.length < 2 ^ 31 ∧ q.2.length < 2 ^ 31

theorem PSBT.accepts_of_done (junk : Nat → Bytes) {p : PSBT} (hp : p.Clean) {vb rest : Bytes} {maps : List (List Pair)}
    (h : (PSBT.fromStream junk p (.of (psbtMagic ++ pairBytes ([0], vb) ++ mapsBytes maps ++ rest))).1.status = .done)
    (hm : Maps vb maps (PSBT.fromStream junk p (.of (psbtMagic ++ pairBytes ([0], vb) ++ mapsBytes maps ++ rest))).1.tx) :
    ∃ t ms, Accepts junk p vb maps t ms ∧
      Parsed (fromStream junk p (.of (psbtMagic ++ pairBytes ([0], vb) ++ mapsBytes maps ++ rest))) t ms (psbtMagic ++ pairBytes ([0], vb) ++ mapsBytes maps).length rest := by
  obtain ⟨vb', maps', rest', t, ms, e, ha, hpar⟩ := PSBT.parse_sound junk hp h
  rw [hpar.tx] at hm
  have e0 := e
  unfold pairBytes at e
  simp only [List.append_assoc, List.append_cancel_left_eq] at e
  obtain ⟨rfl, e'⟩ := varBytes_inj hm.size ha.size e
  have hl : maps.length = maps'.length := by
    rw [ha.sections, hm.sections, UInt8.toNat_ofNat']
    have := hm.few
    omega
  obtain ⟨rfl, rfl⟩ := mapsBytes_inj hl hm.good ha.good e'
  exact ⟨t, ms, ha, PSBT.parse_complete junk hp ha rest⟩

/-- The parsed object, input by input. -/
theorem PSBT.inRun_of_done (junk : Nat → Bytes) {p : PSBT} (hp : p.Clean) {vb rest : Bytes} {maps : List (List Pair)}
    {res : PSBT × Nat × PStream} (hres : PSBT.fromStream junk p (.of (psbtMagic ++ pairBytes ([0], vb) ++ mapsBytes maps ++ rest)) = res)
    (h : res.1.status = .done) (hm : Maps vb maps res.1.tx) {i : Nat} {ti : TxIn} (hti : res.1.tx.txIns[i]? = some ti) :
    ∃ m ps, res.1.ins[i]? = some m ∧ maps[i + 1]? = some ps ∧ InRun ti {} ps m := by
  subst hres
  obtain ⟨t, ms, ha, hpar⟩ := PSBT.accepts_of_done junk hp h hm
  obtain ⟨pos, hrun⟩ := ha.run
  have hs := hm.sections
  rw [hpar.tx] at hs hti
  have hlt := (List.getElem?_eq_some_iff.mp hti).1
  obtain ⟨-, -, h3, -⟩ := PSBT.runMaps_sections maps 0 _ (noMeta t) pos ms (by simp [noMeta]) (by simp [noMeta]) (by omega) ha.good hrun
  obtain ⟨b, b1, -, b3⟩ := h3 i ti {} hti (by unfold noMeta; dsimp only; rw [List.getElem?_replicate, if_pos hlt])
  refine ⟨b, maps[i + 1]'(by omega), by rw [hpar.ins]; exact b1, List.getElem?_eq_getElem _, ?_⟩
  have := b3 (Nat.zero_le _)
  rw [Nat.sub_zero, List.getElem?_eq_getElem (by omega)] at this
  exact this

theorem InRun.mem {ti : TxIn} {a b : InMeta} {ps : List Pair} (h : InRun ti a ps b) {q : Pair} (hq : q ∈ ps) :
    ∃ m m' code junk r, keyCode q.1 = .ok code ∧ InMeta.add junk m ti code (varBytes q.1) (varBytes q.2) = .ok (r, m') ∧ 0 ≤ r := by
  induction h with
  | nil => simp at hq
  | cons code junk r hc ha h0 _ ih =>
    rcases List.mem_cons.mp hq with rfl | hq
    · exact ⟨_, _, code, junk, r, hc, ha, h0⟩
    · exact ih hq

/-- C56: in an accepted PSBT every value under the key `00` of an input map is a transaction whose id is the one in the outpoint and which has
the output the outpoint tells; otherwise the PSBT is not accepted. -/
theorem C56_txid (junk : Nat → Bytes) {p : PSBT} (hp : p.Clean) {vb rest : Bytes} {maps : List (List Pair)} {res : PSBT × Nat × PStream}
    (hres : PSBT.fromStream junk p (.of (psbtMagic ++ pairBytes ([0], vb) ++ mapsBytes maps ++ rest)) = res)
    (h : res.1.status = .done) (hm : Maps vb maps res.1.tx) {i : Nat} {ti : TxIn} (hti : res.1.tx.txIns[i]? = some ti) {ps : List Pair} (hps : maps[i + 1]? = some ps)
    {v : Bytes} (hv : ([0], v) ∈ ps) :
    ∃ t, t = (({} : Tx).fromStream (.of (v.drop (misread v.length)))).1 ∧ t.status = .done ∧ t.txid = .ok ti.hash.reverse ∧ ti.outputIndex.toNat < t.txOuts.length := by
  obtain ⟨m, ps', h1, h2, hr⟩ := PSBT.inRun_of_done junk hp hres h hm hti
  rw [h2] at hps
  cases hps
  obtain ⟨a, a', code, jk, r, hc, hadd, h0⟩ := hr.mem hv
  cases hc
  have hg := hm.good ps (List.mem_of_getElem? h2) _ hv
  refine ⟨_, rfl, ?_⟩
  unfold InMeta.add at hadd
  rw [if_pos rfl, if_neg (by simp [length_varBytes_small]), drop_dataPos v hg.2.2] at hadd
  change (let t := (({} : Tx).fromStream (.of (v.drop (misread v.length)))).1
      if t.status = .ub then C.ub
      else if t.status ≠ .done then .ok ((-2 : Int), a)
      else do
        let h ← t.hash
        if h ≠ ti.hash then return (-3, a)
        else match t.txOuts[ti.outputIndex.toNat]? with
          | none => return (-3, a)
          | some o => return (1, { a with txOut := a.txOut.assign o })) = _ at hadd
  generalize (({} : Tx).fromStream (.of (v.drop (misread v.length)))).1 = t at hadd
  dsimp only at hadd
  split at hadd
  · cases hadd
  split at hadd
  · cases hadd; omega
  rename_i hd
  rw [not_not] at hd
  cases hh : t.hash with
  | ub => rw [hh, C.bind_ub] at hadd; cases hadd
  | ok hsh =>
    rw [hh, C.bind_ok] at hadd
    split at hadd
    · cases hadd; omega
    rename_i he
    rw [not_not] at he
    split at hadd
    · cases hadd; omega
    rename_i o ho
    refine ⟨hd, ?_, (List.getElem?_eq_some_iff.mp ho).1⟩
    unfold Tx.txid
    rw [hh, C.bind_ok, he]
    rfl

/-- C56: the output recorded for an input comes from the last pair that tells about it; if that is a previous transaction (key `00`), the
double hash of its encoding without witnesses is the id in the outpoint, and the output is the one the outpoint tells.  Previous transactions that are
cut off in one special way (see C16) are accepted too, but only if what has been read of them has the id. -/
theorem C56_recorded (junk : Nat → Bytes) {p : PSBT} (hp : p.Clean) {vb rest : Bytes} {maps : List (List Pair)} {res : PSBT × Nat × PStream}
    (hres : PSBT.fromStream junk p (.of (psbtMagic ++ pairBytes ([0], vb) ++ mapsBytes maps ++ rest)) = res)
    (h : res.1.status = .done) (hm : Maps vb maps res.1.tx) {i : Nat} {ti : TxIn} (hti : res.1.tx.txIns[i]? = some ti) {ps : List Pair} (hps : maps[i + 1]? = some ps) :
    ∃ m, res.1.ins[i]? = some m ∧
      (∀ v, ([0], v) ∈ ps → ∃ o, Authentic ti.hash ti.outputIndex.toNat (v.drop (misread v.length)) o) ∧
      (((∀ q ∈ ps, q.1 ≠ [0] ∧ q.1 ≠ [1]) ∧ m.txOut = {}) ∨
       ∃ pre q post o, ps = pre ++ q :: post ∧ (∀ q' ∈ post, q'.1 ≠ [0] ∧ q'.1 ≠ [1]) ∧ Spends ti.hash ti.outputIndex.toNat q o ∧ m.txOut.Holds o) := by
  obtain ⟨m, ps', h1, h2, hr⟩ := PSBT.inRun_of_done junk hp hres h hm hti
  rw [h2] at hps
  cases hps
  obtain ⟨-, i2, i3⟩ := hr.spent (hm.good ps (List.mem_of_getElem? h2)) ⟨rfl, rfl⟩
  have hab : ∀ q : Pair, q.1 = [0] ∨ q.1 = [1] → AboutSpent q := by
    rintro ⟨k, v⟩ (h | h)
    · left; dsimp only at h ⊢; rw [h]; rfl
    · right; dsimp only at h ⊢; rw [h]; rfl
  have hn : ∀ q : Pair, ¬ AboutSpent q → q.1 ≠ [0] ∧ q.1 ≠ [1] := fun q hq => ⟨fun h => hq (hab q (Or.inl h)), fun h => hq (hab q (Or.inr h))⟩
  refine ⟨m, h1, ?_, ?_⟩
  · intro v hv
    obtain ⟨o, ho⟩ := i2 _ hv (hab _ (Or.inl rfl))
    rcases ho with ⟨-, ho⟩ | ⟨ho, -⟩
    · exact ⟨o, ho⟩
    · cases ho
  · rcases i3 with ⟨n1, n2⟩ | ⟨pre, q, post, o, e, n1, -, n3, n4⟩
    · exact Or.inl ⟨fun q hq' => hn q (n1 q hq'), n2⟩
    · exact Or.inr ⟨pre, q, post, o, e, fun q' hq' => hn q' (n1 q' hq'), n3, n4⟩

/-- C56: a previous transaction with another id, or without the output, is refused. -/
theorem C56_rejected (junk : Nat → Bytes) {p : PSBT} (hp : p.Clean) {vb rest : Bytes} {maps : List (List Pair)} {res : PSBT × Nat × PStream}
    (hres : PSBT.fromStream junk p (.of (psbtMagic ++ pairBytes ([0], vb) ++ mapsBytes maps ++ rest)) = res)
    (hm : Maps vb maps res.1.tx) {i : Nat} {ti : TxIn} (hti : res.1.tx.txIns[i]? = some ti) {ps : List Pair} (hps : maps[i + 1]? = some ps)
    (x : Transaction) (hx : WireTx x) (h0 : x.ins ≠ []) (hi : x.ins.length < 253) (ho : x.outs.length < 253) (hmis : misread (txBytes x).length = 0) (hv : ([0], txBytes x) ∈ ps)
    (hne : hash256 (legacyBytes x) ≠ ti.hash ∨ x.outs.length ≤ ti.outputIndex.toNat) : res.1.status ≠ .done := by
  intro h
  obtain ⟨t, h1, h2, h3, h4⟩ := C56_txid junk hp hres h hm hti hps hv
  rw [hmis, List.drop_zero] at h1
  have hfe := Tx.feed {} [] (txBytes x) (Or.inl ⟨rfl, rfl⟩)
  have hrd := readTx_complete x hx h0 hi ho []
  rw [List.append_nil] at hrd
  unfold Tx.Out at hfe
  rw [List.nil_append, hrd] at hfe
  obtain ⟨-, g2, -⟩ := hfe
  rw [← h1] at g2
  unfold Tx.txid at h3
  rw [Tx.hash_eq t x g2 (sizes_wire x hx (by omega) (by omega)), C.bind_ok, C.pure_eq] at h3
  rcases hne with hne | hne
  · apply hne
    have : (hash256 (legacyBytes x)).reverse = ti.hash.reverse := C.ok.inj h3
    exact List.reverse_injective this
  · rw [g2.outs.length_eq] at h4
    omega

end UB
