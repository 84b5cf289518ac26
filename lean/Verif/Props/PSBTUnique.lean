import Verif.Props.PSBTSign
import Verif.Props.PointOps

/-
C99: keys of the maps of a PSBT are unique.
-/

namespace UB
open Spec BN

attribute [local irreducible] secpP secpN BN.multiply BN.fastMod BN.mod BN.subtractmod BN.multK BN.addmod BN.inverse BN.lshift BN.subi BN.add
  BN.multHalf BN.cmov BN.isEqual BN.isZero BN.sqrt BN.subtract scalarMultiply pointMultiply CurvePoint.add readBE writeBE BN.addi doubleSha Spec.hash256
  hmac512 hmacSha512 hash160 Spec.hash160 signDigest ecdsaDeterministic signatureOf fingerprintOf keyAt

/-- BIP 174: no key is twice in a map. -/
structure Spec.PsbtDoc.Unique (d : PsbtDoc) : Prop where
  globals : ([0x00] :: d.globals.map (·.1)).Nodup
  ins : ∀ fs ∈ d.ins, (fs.map (·.pair.1)).Nodup
  outs : ∀ fs ∈ d.outs, (fs.map (·.pair.1)).Nodup

/-- The keys of an input under which there is a signature for the compressed key. -/
def Spec.InField.SigFor (P : Pt) (f : InField) : Prop := ∃ g, f = .partialSig g ∧ g.compressed = true ∧ g.point = P

theorem Spec.InField.key_sig {id : Bytes} {n : Nat} {f : InField} (hf : f.Ok id n) {P : Pt} (hP : P ≠ 0) :
    f.pair.1 = 0x02 :: secOf true P ↔ f.SigFor P := by
  constructor
  · intro h
    cases f with
    | prevTx t => simp [InField.pair] at h
    | utxo o => simp [InField.pair] at h
    | redeemScript s => simp [InField.pair] at h
    | witnessScript s => simp [InField.pair] at h
    | origin o => simp [InField.pair] at h
    | other p =>
      obtain ⟨c, r, e, hc⟩ := OtherOk.key hf
      rw [InField.pair, e] at h
      obtain ⟨rfl, -⟩ := List.cons.inj h
      exact absurd hc (by decide)
    | partialSig g =>
      have hg : g.Ok := hf
      obtain ⟨e1, e2⟩ := ECPoint.secOf_inj hg.point hP (List.cons.inj h).2
      exact ⟨g, rfl, e1, e2⟩
  · rintro ⟨g, rfl, h1, h2⟩
    rw [InField.pair, h1, h2]

theorem Spec.owned_mem {d : Nat} {c : Bytes} {os : List KeyOrigin} {o : KeyOrigin} (h : o ∈ owned d c os) : o ∈ os ∧ Owns d c o := by
  classical
  unfold owned at h
  have := List.mem_filter.mp h
  exact ⟨this.1, by simpa using this.2⟩

theorem Spec.SignedBy.keys {x : Transaction} {i : Nat} {inp : In} {f : InputInfo} {d : Nat} {c : Bytes} {os : List KeyOrigin} {gs : List SigEntry}
    (h : List.Forall₂ (SignedBy x i inp f d c) os gs) :
    (gs.map InField.partialSig).map (·.pair.1) = os.map fun o => 0x02 :: secOf true o.point := by
  induction h with
  | nil => rfl
  | cons h _ ih =>
    rw [List.map_cons, List.map_cons, List.map_cons, ih]
    congr 1
    rw [InField.pair, h.compressed, h.point]

/-- The keys of an input after signing are unique exactly if they were before, the entries of the master key are for different keys, and none of
them has been signed for. -/
theorem unique_signed {id : Bytes} {n : Nat} {fs : List InField} (hf : ∀ f ∈ fs, f.Ok id n) {os : List KeyOrigin} (hos : ∀ o ∈ os, o.point ≠ 0) {ks : List Bytes}
    (hks : ks = os.map fun o => 0x02 :: secOf true o.point) :
    (fs.map (·.pair.1) ++ ks).Nodup ↔ (fs.map (·.pair.1)).Nodup ∧ (os.map (·.point)).Nodup ∧ ∀ o ∈ os, ∀ f ∈ fs, ¬ f.SigFor o.point := by
  subst hks
  rw [List.nodup_append]
  refine and_congr_right fun _ => and_congr ?_ ?_
  · have e : os.map (fun o => 0x02 :: secOf true o.point) = (os.map (·.point)).map fun P => 0x02 :: secOf true P := by rw [List.map_map]; rfl
    rw [e]
    refine ⟨List.Nodup.of_map _, fun h => List.Nodup.map_on ?_ h⟩
    intro P hP Q hQ hPQ
    obtain ⟨o, ho, rfl⟩ := List.mem_map.mp hP
    obtain ⟨o', ho', rfl⟩ := List.mem_map.mp hQ
    exact (ECPoint.secOf_inj (hos o ho) (hos o' ho') (List.cons.inj hPQ).2).2
  · constructor
    · intro h o ho f hf' hs
      exact h _ (List.mem_map.mpr ⟨f, hf', rfl⟩) _ (List.mem_map.mpr ⟨o, ho, rfl⟩) ((InField.key_sig (hf f hf') (hos o ho)).mpr hs)
    · intro h a ha b hb e
      obtain ⟨f, hf', rfl⟩ := List.mem_map.mp ha
      obtain ⟨o, ho, rfl⟩ := List.mem_map.mp hb
      exact h o ho f hf' ((InField.key_sig (hf f hf') (hos o ho)).mp e)

/-- What an input needs so that signing keeps its keys unique. -/
def Spec.Fresh (d : Nat) (c : Bytes) (fs : List InField) : Prop :=
  ((owned d c (keysOf fs)).map (·.point)).Nodup ∧ ∀ o ∈ owned d c (keysOf fs), ∀ f ∈ fs, ¬ f.SigFor o.point

theorem Spec.PsbtDoc.Ok.input {d : PsbtDoc} (hd : d.Ok) {i : Nat} {fs : List InField} (h : d.ins[i]? = some fs) :
    ∃ inp, d.tx.ins[i]? = some inp ∧ ∀ f ∈ fs, f.Ok inp.prevHash inp.prevIndex := by
  obtain ⟨hi, e⟩ := List.getElem?_eq_some_iff.mp h
  have hl := hd.ins.length_eq
  have := (List.forall₂_iff_get.mp hd.ins).2 i (by omega) hi
  simp only [List.get_eq_getElem] at this
  rw [e] at this
  exact ⟨_, List.getElem?_eq_getElem (by omega), this.1⟩

theorem Spec.owned_point {d : Nat} {c : Bytes} {id : Bytes} {n : Nat} {fs : List InField} (hf : ∀ f ∈ fs, f.Ok id n) {o : KeyOrigin} (ho : o ∈ owned d c (keysOf fs)) : o.point ≠ 0 := by
  obtain ⟨f, hf', e⟩ := List.mem_filterMap.mp (owned_mem ho).1
  cases f with
  | origin o' =>
    cases e
    have h : o.Ok := hf _ hf'
    exact h.point
  | _ => cases e

/-- C99: signing keeps the keys unique exactly if in each input the entries of the master key are for different keys and there is no signature yet
for any of them. -/
theorem C99_signed_unique {doc doc' : PsbtDoc} (hd : doc.Ok) {d : Nat} {c : Bytes} (h : doc.SignedTo d c doc') :
    doc'.Unique ↔ doc.Unique ∧ ∀ fs ∈ doc.ins, Fresh d c fs := by
  have key : ∀ (i : Nat) (fs : List InField), doc.ins[i]? = some fs → ∃ gs : List SigEntry, doc'.ins[i]? = some (fs ++ gs.map InField.partialSig) ∧
      (((fs ++ gs.map InField.partialSig).map (·.pair.1)).Nodup ↔ (fs.map (·.pair.1)).Nodup ∧ Fresh d c fs) := by
    intro i fs hfs
    obtain ⟨inp, h1, h2⟩ := hd.input hfs
    obtain ⟨gs, h3, h4⟩ := h.ins i inp fs h1 hfs
    refine ⟨gs, h3, ?_⟩
    rw [List.map_append]
    exact unique_signed h2 (fun o ho => owned_point h2 ho) (SignedBy.keys h4)
  constructor
  · intro hu
    have hin : ∀ fs ∈ doc.ins, (fs.map (·.pair.1)).Nodup ∧ Fresh d c fs := by
      intro fs hfs
      obtain ⟨i, hi, rfl⟩ := List.getElem_of_mem hfs
      obtain ⟨gs, h1, h2⟩ := key i _ (List.getElem?_eq_getElem hi)
      exact h2.mp (hu.ins _ (List.mem_of_getElem? h1))
    exact ⟨⟨h.globals ▸ hu.globals, fun fs hfs => (hin fs hfs).1, h.outs ▸ hu.outs⟩, fun fs hfs => (hin fs hfs).2⟩
  · rintro ⟨hu, hf⟩
    refine ⟨h.globals.symm ▸ hu.globals, ?_, h.outs.symm ▸ hu.outs⟩
    intro fs hfs
    obtain ⟨i, hi, rfl⟩ := List.getElem_of_mem hfs
    have hi' : i < doc.ins.length := by rw [← h.count]; exact hi
    obtain ⟨gs, h1, h2⟩ := key i _ (List.getElem?_eq_getElem hi')
    rw [List.getElem?_eq_getElem hi, Option.some.injEq] at h1
    rw [h1]
    exact h2.mpr ⟨hu.ins _ (List.getElem_mem hi'), hf _ (List.getElem_mem hi')⟩

/-- C99: what is written of a document with unique keys has unique keys. -/
theorem C99_written_unique {d : PsbtDoc} (h : d.Unique) : d.kept.Unique where
  globals := by simp [PsbtDoc.kept]
  ins := by
    intro fs hfs
    obtain ⟨gs, hgs, rfl⟩ := List.mem_map.mp hfs
    have := h.ins gs hgs
    have e : ((gs.filterMap InField.sig).map fun g => InField.partialSig { g with type := 1 }).map (·.pair.1) =
        (gs.filterMap InField.sig).map fun g => (InField.partialSig g).pair.1 := by
      rw [List.map_map]
      rfl
    rw [e]
    clear e hgs hfs
    have hsub : List.Sublist ((gs.filterMap InField.sig).map fun g => (InField.partialSig g).pair.1) (gs.map (·.pair.1)) := by
      induction gs with
      | nil => exact .slnil
      | cons f gs ih =>
        have ih' := ih (List.nodup_cons.mp this).2
        cases f with
        | partialSig g => exact List.Sublist.cons_cons _ ih'
        | _ => exact List.Sublist.cons _ ih'
    exact hsub.nodup this
  outs := by
    intro fs hfs
    obtain ⟨f, -, rfl⟩ := List.mem_map.mp hfs
    simp

/-- C99 (partial): what is written after signing has unique keys, if the document had and the keys that are signed with are different and new.  Missing:
documents with entries or signatures for the same key (`C99_signed_unique`, `C99_sign_twice`), and the conditions of `C58_sign_partial`. -/
theorem C99_sign_partial {p : PSBT} {doc : PsbtDoc} (h : p.Holds doc) (hd : doc.Ok) (hu : doc.Unique) (root : HDPriv) (d : Nat) (hr : root.Sound d)
    (hc : root.pubKey.compressed = true) (env : PSBT.SignEnv) (he : env.Good) (hp : doc.PathsOk (fingerprintOf (d • G))) (hroom : doc.Room d root.head.chainCode)
    (hf : ∀ fs ∈ doc.ins, Fresh d root.head.chainCode fs) :
    ∃ q n doc', p.sign root env = .ok (q, n) ∧ doc.SignedTo d root.head.chainCode doc' ∧ q.Holds doc' ∧ doc'.Unique ∧
      q.toStream none 0 = .ok (doc'.kept.bytes, doc'.kept.bytes.length) ∧ doc'.kept.Ok ∧ doc'.kept.Unique := by
  obtain ⟨q, n, doc', a1, a2, a3, a4, -⟩ := C58_sign_partial h hd root d hr hc env he hp hroom
  obtain ⟨m, w1, -, w3⟩ := C57_written_partial a3 a4 none
  rw [w3 (by simp)] at w1
  have u := (C99_signed_unique hd a2).mpr ⟨hu, hf⟩
  refine ⟨q, n, doc', a1, a2, a4, u, ?_, doc'.kept_ok a3, C99_written_unique u⟩
  rw [w1]
  unfold window
  simp

theorem Spec.PsbtDoc.SignedTo.keys {doc doc' : PsbtDoc} {d : Nat} {c : Bytes} (h : doc.SignedTo d c doc') (hd : doc.Ok) : doc'.ins.map keysOf = doc.ins.map keysOf := by
  apply List.ext_getElem
  · simpa using h.count
  · intro i h1 h2
    rw [List.length_map] at h1 h2
    obtain ⟨inp, g1, -⟩ := hd.input (List.getElem?_eq_getElem h2)
    obtain ⟨gs, g2, -⟩ := h.ins i inp _ g1 (List.getElem?_eq_getElem h2)
    rw [List.getElem?_eq_getElem h1, Option.some.injEq] at g2
    rw [List.getElem_map, List.getElem_map, g2]
    unfold keysOf
    rw [List.filterMap_append, (sigs_only gs).2.1, List.append_nil]

theorem flatMap_keys (l : List (List InField)) : l.flatMap keysOf = (l.map keysOf).flatten := by rw [List.flatMap_def]

/-- The conditions of signing depend on the entries only. -/
theorem Spec.PsbtDoc.PathsOk.congr {doc doc' : PsbtDoc} {fp : Bytes} (h : doc.PathsOk fp) (e : doc'.ins.map keysOf = doc.ins.map keysOf) : doc'.PathsOk fp := by
  intro o1 h1 fs hfs o ho hfp
  have h1' : doc.firstEntry fp = some o1 := by
    unfold PsbtDoc.firstEntry at h1 ⊢
    rw [flatMap_keys] at h1 ⊢
    rw [← e]
    exact h1
  have : keysOf fs ∈ doc.ins.map keysOf := e ▸ List.mem_map.mpr ⟨fs, hfs, rfl⟩
  obtain ⟨fs', hfs', e'⟩ := List.mem_map.mp this
  exact h o1 h1' fs' hfs' o (e' ▸ ho) hfp

/-- C99: signing again with the same master key signs again: the same number is returned, and if it is not a multiple of 256 - more generally if any
entry belongs to the master key - what is written then has a key twice in a map and is no longer a PSBT according to BIP 174. -/
theorem C99_sign_twice {p : PSBT} {doc : PsbtDoc} (h : p.Holds doc) (hd : doc.Ok) (root : HDPriv) (d : Nat) (hr : root.Sound d)
    (hc : root.pubKey.compressed = true) (env env' : PSBT.SignEnv) (he : env.Good) (he' : env'.Good) (hp : doc.PathsOk (fingerprintOf (d • G)))
    (hroom : ∀ fs ∈ doc.ins, (fs.filterMap InField.sig).length + 2 * (owned d root.head.chainCode (keysOf fs)).length ≤ 255) :
    ∃ q q' n doc1 doc2, p.sign root env = .ok (q, n) ∧ q.sign root env' = .ok (q', n) ∧ doc.SignedTo d root.head.chainCode doc1 ∧
      doc1.SignedTo d root.head.chainCode doc2 ∧ doc2.Ok ∧ q'.Holds doc2 ∧ q'.toStream none 0 = .ok (doc2.kept.bytes, doc2.kept.bytes.length) ∧
      ((∃ fs ∈ doc.ins, owned d root.head.chainCode (keysOf fs) ≠ []) → ¬ doc2.kept.Unique) := by
  obtain ⟨q, n, doc1, a1, a2, a3, a4, -, -, a7⟩ := C58_sign_partial h hd root d hr hc env he hp
    (fun fs hfs => by have := hroom fs hfs; omega)
  have hk := a2.keys hd
  have hget : ∀ i (hi : i < doc.ins.length), ∃ gs : List SigEntry, doc1.ins[i]? = some (doc.ins[i] ++ gs.map InField.partialSig) ∧
      gs.length = (owned d root.head.chainCode (keysOf doc.ins[i])).length ∧
      (gs.map InField.partialSig).map (·.pair.1) = (owned d root.head.chainCode (keysOf doc.ins[i])).map fun o => 0x02 :: secOf true o.point := by
    intro i hi
    obtain ⟨inp, g1, -⟩ := hd.input (List.getElem?_eq_getElem hi)
    obtain ⟨gs, g2, g3⟩ := a2.ins i inp _ g1 (List.getElem?_eq_getElem hi)
    exact ⟨gs, g2, g3.length_eq.symm, SignedBy.keys g3⟩
  have hkeys : ∀ i (hi : i < doc.ins.length) (hi' : i < doc1.ins.length), keysOf doc1.ins[i] = keysOf doc.ins[i] := by
    intro i hi hi'
    have := congrArg (fun l => l[i]?) hk
    simpa [List.getElem?_eq_getElem hi, List.getElem?_eq_getElem hi'] using this
  obtain ⟨q', n', doc2, b1, b2, b3, b4, -, -, b7⟩ := C58_sign_partial a4 a3 root d hr hc env' he' (hp.congr hk) (by
    intro fs hfs
    obtain ⟨i, hi, rfl⟩ := List.getElem_of_mem hfs
    have hi' : i < doc.ins.length := by rw [← a2.count]; exact hi
    obtain ⟨gs, g1, g2, -⟩ := hget i hi'
    have := hroom _ (List.getElem_mem hi')
    rw [hkeys i hi' hi]
    rw [List.getElem?_eq_getElem hi, Option.some.injEq] at g1
    rw [g1, List.filterMap_append, (sigs_only gs).1, List.length_append, g2]
    omega)
  have hn : n' = n := by
    apply UInt8.toNat_inj.mp
    rw [a7, b7]
    have e : ∀ l : List (List InField), (l.map fun fs => (owned d root.head.chainCode (keysOf fs)).length) =
        (l.map keysOf).map fun os => (owned d root.head.chainCode os).length := fun l => by rw [List.map_map]; rfl
    rw [e, e, hk]
  subst hn
  obtain ⟨m, w1, -, w3⟩ := C57_written_partial b3 b4 none
  rw [w3 (by simp)] at w1
  refine ⟨q, q', n', doc1, doc2, a1, b1, a2, b2, b3, b4, ?_, ?_⟩
  · rw [w1]
    unfold window
    simp
  · rintro ⟨fs, hfs, hne⟩ hu
    obtain ⟨i, hi, rfl⟩ := List.getElem_of_mem hfs
    have hi1 : i < doc1.ins.length := by rw [a2.count]; exact hi
    obtain ⟨gs, g1, g2, g3⟩ := hget i hi
    obtain ⟨inp, f1, -⟩ := a3.input (List.getElem?_eq_getElem hi1)
    obtain ⟨gs', f2, f3⟩ := b2.ins i inp _ f1 (List.getElem?_eq_getElem hi1)
    have f4 := SignedBy.keys f3
    rw [hkeys i hi hi1, ← g3] at f4
    rw [List.getElem?_eq_getElem hi1, Option.some.injEq] at g1
    rw [g1] at f2
    have hmem := hu.ins (((doc.ins[i] ++ gs.map InField.partialSig ++ gs'.map InField.partialSig).filterMap InField.sig).map fun g => .partialSig { g with type := 1 })
      (List.mem_map.mpr ⟨_, List.mem_of_getElem? f2, rfl⟩)
    rw [List.filterMap_append, List.filterMap_append, (sigs_only gs).1, (sigs_only gs').1, List.map_map, List.map_append, List.map_append] at hmem
    have e1 : ∀ l : List SigEntry, l.map ((fun f : InField => f.pair.1) ∘ fun g => InField.partialSig { g with type := 1 }) = (l.map InField.partialSig).map (·.pair.1) := by
      intro l
      rw [List.map_map]
      rfl
    rw [e1, e1, e1, f4, List.append_assoc] at hmem
    have hd2 := (List.nodup_append.mp (List.nodup_append.mp hmem).2.1).2.2
    cases gs with
    | nil => exact hne (List.length_eq_zero_iff.mp g2.symm)
    | cons g gs => exact hd2 _ (List.mem_cons_self) _ (List.mem_cons_self) rfl

/-- C99: a field given a second time is accepted, and so is a second transaction in the global map, whose value is not looked at. -/
theorem C99_duplicates_accepted (junk : Nat → Bytes) {p : PSBT} (hp : p.Clean) (d : PsbtDoc) (hd : d.Ok) (i : Nat) (fs : List InField) (hi : d.ins[i]? = some fs)
    (f : InField) (hf : f ∈ fs) (hs : (fs.filterMap InField.sig).length < 255) (hk : (fs.filterMap InField.key).length < 255) (other : Bytes) (ho : other.length < 2 ^ 31) (rest : Bytes) :
    let d1 : PsbtDoc := { d with ins := d.ins.set i (fs ++ [f]) }
    let d2 : PsbtDoc := { d with globals := ([0x00], other) :: d.globals }
    ¬ d1.Unique ∧ (PSBT.fromStream junk p (.of (d1.bytes ++ rest))).1.status = .done ∧ (PSBT.fromStream junk p (.of (d1.bytes ++ rest))).1.Holds d1 ∧
    ¬ d2.Unique ∧ (PSBT.fromStream junk p (.of (d2.bytes ++ rest))).1.status = .done ∧ (PSBT.fromStream junk p (.of (d2.bytes ++ rest))).1.Holds d := by
  intro d1 d2
  have hlt : i < d.ins.length := (List.getElem?_eq_some_iff.mp hi).1
  have ok1 : d1.Ok := by
    refine ⟨hd.wire, hd.nonempty, hd.nIns, hd.nOuts, hd.count, hd.size, hd.exact, hd.globals, ?_, hd.outs, hd.fields⟩
    have hl := hd.ins.length_eq
    rw [List.forall₂_iff_get]
    refine ⟨by show _ = (d.ins.set i _).length; rw [List.length_set]; exact hl, fun j h1 h2 => ?_⟩
    have hj : j < d.ins.length := hl ▸ h1
    have := (List.forall₂_iff_get.mp hd.ins).2 j h1 hj
    simp only [List.get_eq_getElem] at this ⊢
    by_cases e : i = j
    · subst e
      rw [List.getElem?_eq_getElem hj, Option.some.injEq] at hi
      rw [hi] at this
      have e2 : d1.ins[i] = fs ++ [f] := List.getElem_set_self _
      rw [e2]
      refine ⟨?_, ?_, ?_⟩
      · intro f' hf'
        have hf'' : f' ∈ fs ++ [f] := by simpa using hf'
        rcases List.mem_append.mp hf'' with h | h
        · exact this.1 f' h
        · rw [List.mem_singleton] at h; subst h; exact this.1 _ hf
      · rw [List.filterMap_append, List.length_append]
        have := List.length_filterMap_le InField.sig [f]
        simp only [List.length_singleton] at this
        omega
      · rw [List.filterMap_append, List.length_append]
        have := List.length_filterMap_le InField.key [f]
        simp only [List.length_singleton] at this
        omega
    · have e2 : d1.ins[j]'h2 = d.ins[j] := List.getElem_set_ne e _
      rw [e2]
      exact this
  have ok2 : d2.Ok := by
    refine ⟨hd.wire, hd.nonempty, hd.nIns, hd.nOuts, hd.count, hd.size, hd.exact, ?_, hd.ins, hd.outs, hd.fields⟩
    intro q hq
    rcases List.mem_cons.mp hq with rfl | hq
    · exact ⟨by simp, by simp, ho⟩
    · exact hd.globals q hq
  have c1 := C57_parse_partial junk hp d1 ok1 rest
  have c2 := C57_parse_partial junk hp d2 ok2 rest
  refine ⟨?_, c1.1, c1.2.1, ?_, c2.1, ⟨c2.2.1.tx, c2.2.1.ins, c2.2.1.outs⟩⟩
  · intro hu
    have := hu.ins (fs ++ [f]) (List.mem_set hlt _)
    rw [List.map_append] at this
    exact (List.nodup_append.mp this).2.2 _ (List.mem_map.mpr ⟨f, hf, rfl⟩) _ (List.mem_cons_self) rfl
  · intro hu
    have := hu.globals
    rw [List.nodup_cons] at this
    exact this.1 (by simp [d2])

/-! ### Examples -/

/-- The document of the example of C58 without its signature. -/
noncomputable def exFreshDoc : PsbtDoc := { exSignDoc with ins := [[.prevTx exTxSpec, .origin exForeign, .origin exOwn]] }

theorem exFreshDoc_ok : exFreshDoc.Ok where
  wire := exSignDoc_ok.wire
  nonempty := exSignDoc_ok.nonempty
  nIns := exSignDoc_ok.nIns
  nOuts := exSignDoc_ok.nOuts
  count := exSignDoc_ok.count
  size := exSignDoc_ok.size
  exact := exSignDoc_ok.exact
  globals := exSignDoc_ok.globals
  ins := by
    have h := exSignDoc_ok.ins
    have h1 := (List.forall₂_cons.mp h).1
    refine .cons ⟨fun f hf => h1.1 f ?_, by decide, by decide⟩ .nil
    simp only [List.mem_cons, List.not_mem_nil, or_false] at hf ⊢
    tauto
  outs := exSignDoc_ok.outs
  fields := exSignDoc_ok.fields

theorem exFreshDoc_owned (c : Bytes) : owned 1 c (keysOf [.prevTx exTxSpec, .origin exForeign, .origin exOwn]) = [exOwn] := exSignDoc_owned c

theorem exFreshDoc_unique : exFreshDoc.Unique where
  globals := by simp [exFreshDoc, exSignDoc]
  ins := by
    intro fs hfs
    rw [show exFreshDoc.ins = [[.prevTx exTxSpec, .origin exForeign, .origin exOwn]] from rfl, List.mem_singleton] at hfs
    subst hfs
    have hne : secOf exForeign.compressed exForeign.point ≠ secOf exOwn.compressed exOwn.point := fun h =>
      G_ne_neg (ECPoint.secOf_inj (P := -G) (Q := G) (neg_ne_zero.mpr G_ne_zero) G_ne_zero h).2
    simp [InField.pair, hne]
  outs := by
    intro fs hfs
    rw [show exFreshDoc.outs = [[.origin exOrigin]] from rfl, List.mem_singleton] at hfs
    subst hfs
    simp

/-- Nothing has been signed in this document, and one key belongs to the master key ... -/
theorem exFreshDoc_fresh (c : Bytes) : ∀ fs ∈ exFreshDoc.ins, Fresh 1 c fs := by
  intro fs hfs
  rw [show exFreshDoc.ins = [[.prevTx exTxSpec, .origin exForeign, .origin exOwn]] from rfl, List.mem_singleton] at hfs
  subst hfs
  refine ⟨?_, ?_⟩
  · rw [exFreshDoc_owned]; simp
  · rintro o - f hf ⟨g, rfl, -⟩
    simp at hf

/-- ... so the keys are unique after signing ... -/
example {doc' : PsbtDoc} {c : Bytes} (h : exFreshDoc.SignedTo 1 c doc') : doc'.Unique ∧ doc'.kept.Unique :=
  have h1 := (C99_signed_unique exFreshDoc_ok h).mpr ⟨exFreshDoc_unique, exFreshDoc_fresh c⟩
  ⟨h1, C99_written_unique h1⟩

/-- ... and not after signing twice. -/
example (junk : Nat → Bytes) (rest : Bytes) : ∃ q q' doc2, (PSBT.fromStream junk {} (.of (exFreshDoc.bytes ++ rest))).1.sign hdOne exEnv = .ok (q, 1) ∧
    q.sign hdOne exEnv = .ok (q', 1) ∧ q'.Holds doc2 ∧ ¬ doc2.kept.Unique := by
  have hpaths : exFreshDoc.PathsOk (fingerprintOf ((1 : Nat) • G)) := by
    intro o1 h1 fs hfs o ho hfp
    have : exFreshDoc.firstEntry (fingerprintOf ((1 : Nat) • G)) = some exForeign := by
      unfold PsbtDoc.firstEntry
      show List.find? _ [exForeign, exOwn] = _
      rw [List.find?_cons_of_pos (by simp [exForeign])]
    rw [this, Option.some.injEq] at h1
    subst h1
    exact Nat.zero_le _
  have hroom : ∀ fs ∈ exFreshDoc.ins, (fs.filterMap InField.sig).length + 2 * (owned 1 hdOne.head.chainCode (keysOf fs)).length ≤ 255 := by
    intro fs hfs
    rw [show exFreshDoc.ins = [[.prevTx exTxSpec, .origin exForeign, .origin exOwn]] from rfl, List.mem_singleton] at hfs
    subst hfs
    rw [exFreshDoc_owned]
    decide
  have hh := (C57_parse_partial junk PSBT.clean_fresh exFreshDoc exFreshDoc_ok rest).2.1
  obtain ⟨q, q', n, doc1, doc2, h1, h2, h3, h4, h5, h6, h7, h8⟩ := C99_sign_twice hh exFreshDoc_ok hdOne 1 holds_hdOne.sound rfl exEnv exEnv exEnv_good exEnv_good hpaths hroom
  obtain ⟨q0, n0, -, e1, -, -, -, -, -, e7⟩ := C58_sign_partial hh exFreshDoc_ok hdOne 1 holds_hdOne.sound rfl exEnv exEnv_good hpaths (fun fs hfs => by have := hroom fs hfs; omega)
  rw [h1] at e1
  obtain ⟨-, rfl⟩ := Prod.mk.inj (C.ok.inj e1)
  have hn : n = 1 := by
    apply UInt8.toNat_inj.mp
    rw [e7, show exFreshDoc.ins = [[.prevTx exTxSpec, .origin exForeign, .origin exOwn]] from rfl, List.map_cons, exFreshDoc_owned]
    rfl
  subst hn
  refine ⟨q, q', doc2, h1, h2, h6, h8 ⟨_, List.mem_cons_self, ?_⟩⟩
  rw [exFreshDoc_owned]
  simp

/-- In the document of C58 there is a signature for the key already. -/
example {doc' : PsbtDoc} {c : Bytes} (h : exSignDoc.SignedTo 1 c doc') : ¬ doc'.Unique := by
  intro hu
  have := ((C99_signed_unique exSignDoc_ok h).mp hu).2 _ (List.mem_cons_self)
  refine this.2 exOwn (by rw [exSignDoc_owned]; simp) (.partialSig exSigEntry) (by simp) ⟨exSigEntry, rfl, rfl, rfl⟩

/-- The key of the master key given twice. -/
example (junk : Nat → Bytes) (rest : Bytes) : ∃ d : PsbtDoc, ¬ d.Unique ∧ (PSBT.fromStream junk {} (.of (d.bytes ++ rest))).1.status = .done :=
  have h := C99_duplicates_accepted junk PSBT.clean_fresh exFreshDoc exFreshDoc_ok 0 _ rfl (.origin exOwn) (by simp) (by decide) (by decide) [] (by decide) rest
  ⟨_, h.1, h.2.1⟩

end UB
