import Verif.Lemmas.PSBTWrite
import Verif.Props.PSBTLimits

/-
C57 (serialization) PSBTs.
-/

namespace UB
open Spec

/-- The bytes that are written for a transaction and the signatures of its inputs. -/
def Spec.sigDoc (x : Transaction) (sigs : List (List SigEntry)) : Bytes :=
  psbtBytes (txBytes x) [] (sigs.map (·.map SigEntry.written) ++ x.outs.map fun _ => [])

/-- The signatures of the inputs. -/
def PSBT.Signed (p : PSBT) (sigs : List (List SigEntry)) : Prop :=
  List.Forall₂ (fun (m : InMeta) es => List.Forall₂ PartialSig.Holds m.signatures es ∧ ∀ e ∈ es, e.Ok) p.ins sigs

/-- C57, serialization from the start: to a stream of any capacity the first bytes of the transaction and the signatures are written; `length`
is the number of all bytes, and with room for them this is also the return value. -/
theorem C57_toStream_partial (p : PSBT) (x : Transaction) (sigs : List (List SigEntry)) (h : p.tx.Holds x) (hs : SmallTx x) (hn : x.ins.length + x.outs.length ≤ 254)
    (ht : (txBytes x).length < 2 ^ 64) (hg : p.Signed sigs) (hl : sigs.length = x.ins.length) (cap : Option Nat) :
    ∃ n, p.toStream cap 0 = .ok (window cap 0 (sigDoc x sigs), n) ∧ p.length = .ok (sigDoc x sigs).length ∧
      ((∀ c, cap = some c → (sigDoc x sigs).length ≤ c) → n = (sigDoc x sigs).length) := by
  have hli := h.ins.length_eq
  have hlo := h.outs.length_eq
  have hlg := hg.length_eq
  have htl := Tx.length_eq p.tx x h (by have := hs.ins; omega) (by have := hs.outs; omega) hs.inScripts hs.outScripts (fun i hi => by have := hs.stacks i hi; omega)
  have hsec : (UInt8.ofNat (1 + p.tx.txIns.length + p.tx.txOuts.length)).toNat = 1 + x.ins.length + x.outs.length := by
    rw [UInt8.toNat_ofNat']; omega
  have h0 : 0 < (txBytes x).length := by
    have : ∀ a b c d e f : Bytes, (leBytes 4 x.version ++ a ++ b ++ c ++ d ++ e).length > 0 := by intros; simp
    unfold txBytes legacyBytes segwitBytes
    split <;> simp
  have e : sigDoc x sigs = psbtMagic ++ [1, 0] ++ compactSize (txBytes x).length ++ txBytes x ++
      mapsBytes ([] :: (sigs.map (·.map SigEntry.written) ++ x.outs.map fun _ => [])) := by
    unfold sigDoc psbtBytes pairBytes mapsBytes
    rw [List.flatMap_cons, varBytes_small (d := [0]) (by decide)]
    unfold varBytes
    simp [List.append_assoc]
  have hmaps : ([] :: (sigs.map (·.map SigEntry.written) ++ x.outs.map fun _ => ([] : List Pair)) : List (List Pair)).length = 1 + x.ins.length + x.outs.length := by
    simp; omega
  have hok : ∀ j (hj : j < ([] :: (sigs.map (·.map SigEntry.written) ++ x.outs.map fun _ => ([] : List Pair)) : List (List Pair)).length),
      p.SecOk (0 + j) ([] :: (sigs.map (·.map SigEntry.written) ++ x.outs.map fun _ => ([] : List Pair)))[j] := by
    intro j hj
    rw [Nat.zero_add]
    unfold PSBT.SecOk
    cases j with
    | zero => rw [if_neg (by simp)]; rfl
    | succ j =>
      rw [List.getElem_cons_succ]
      by_cases hji : j < x.ins.length
      · rw [if_pos (by omega)]
        have := (List.forall₂_iff_get.mp hg).2 j (by omega) (by omega)
        simp only [List.get_eq_getElem] at this
        refine ⟨p.ins[j]'(by omega), sigs[j]'(by omega), ?_, this.1, this.2, ?_⟩
        · rw [Nat.add_sub_cancel, List.getElem?_eq_getElem]
        · rw [List.getElem_append_left (by rw [List.length_map]; omega), List.getElem_map]
      · rw [if_neg (by omega), List.getElem_append_right (by rw [List.length_map]; omega), List.getElem_map]
  obtain ⟨extra, hem, hextra⟩ := PSBT.emitSections_after p cap _ 0 (psbtMagic ++ [1, 0] ++ compactSize (txBytes x).length ++ txBytes x) hok
  rw [hmaps] at hem
  have hc9 := compactSize_length (txBytes x).length
  refine ⟨(window cap 0 (sigDoc x sigs)).length + extra, ?_, ?_, ?_⟩
  · unfold PSBT.toStream
    rw [← Ser.after_nil cap 0]
    dsimp only
    rw [Ser.emit_after cap 0 [] (PSBT.magic ++ [0x01, 0x00]) 0 7 rfl rfl, C.bind_ok, List.nil_append, htl, writeVarInt_zeros _ 10 ht (by omega), C.bind_ok]
    dsimp only
    rw [Ser.emit_after' cap 0 (PSBT.magic ++ [0x01, 0x00]) (compactSize (txBytes x).length ++ zeros (10 - (compactSize (txBytes x).length).length)) (compactSize (txBytes x).length).length (by simp) 7 (7 + (compactSize (txBytes x).length).length) rfl rfl,
      C.bind_ok, List.take_left' rfl]
    have e7 : 7 + (compactSize (txBytes x).length).length = (PSBT.magic ++ [0x01, 0x00] ++ compactSize (txBytes x).length).length := by
      rw [List.length_append]; rfl
    have := PSBT.emitTx_after p.tx (txBytes x) cap (PSBT.magic ++ [0x01, 0x00] ++ compactSize (txBytes x).length) htl h0 (Tx.toStream_eq p.tx x h hs)
    rw [htl] at this
    rw [e7, this, C.bind_ok, hsec]
    have e8 : (PSBT.magic ++ [0x01, 0x00] ++ compactSize (txBytes x).length).length + (txBytes x).length = (PSBT.magic ++ [0x01, 0x00] ++ compactSize (txBytes x).length ++ txBytes x).length := by
      rw [List.length_append (bs := txBytes x)]
    rw [e8]
    change (PSBT.emitSections p 0 _ 0 (Ser.after cap 0 (psbtMagic ++ [1, 0] ++ compactSize (txBytes x).length ++ txBytes x)) 0 (psbtMagic ++ [1, 0] ++ compactSize (txBytes x).length ++ txBytes x).length) >>= _ = _
    rw [hem, C.bind_ok, ← e]
    rfl
  · unfold PSBT.length
    rw [if_neg (by omega)]
    dsimp only
    rw [hsec, htl, lenVarIntN_eq _ ht, e, List.take_of_length_le (by omega)]
    congr 1
    have hsum : ∀ {ms : List InMeta} {ss : List (List SigEntry)}, List.Forall₂ (fun (m : InMeta) es => List.Forall₂ PartialSig.Holds m.signatures es ∧ ∀ e ∈ es, e.Ok) ms ss →
        (ms.map fun m => (m.signatures.map fun g => 2 + g.pubkey.length + (2 + g.signature.length)).sum).sum + ss.length = (mapsBytes (ss.map (·.map SigEntry.written))).length := by
      intro ms ss hf
      induction hf with
      | nil => rfl
      | cons h1 _ ih =>
        unfold mapsBytes mapBytes at ih ⊢
        simp only [List.map_cons, List.sum_cons, List.flatMap_cons, List.length_append, List.length_cons, List.length_nil]
        rw [← ih, (PSBT.emitSigs_after none [] h1.1 h1.2).2]
        omega
    have hz : ∀ os : List Out, (mapsBytes (os.map fun _ => [])).length = os.length := by
      intro os
      induction os with
      | nil => rfl
      | cons o os ih =>
        unfold mapsBytes mapBytes at ih ⊢
        rw [List.map_cons, List.flatMap_cons, List.length_append, ih, List.length_cons]
        simp
        omega
    have h1 := hsum hg
    have h2 := hz x.outs
    unfold mapsBytes at h1 h2 ⊢
    rw [List.flatMap_cons, List.flatMap_append]
    simp only [List.length_append]
    rw [← h1, h2]
    have : (mapBytes []).length = 1 := rfl
    have : psbtMagic.length = 5 := rfl
    simp only [List.length_cons, List.length_nil]
    omega
  · intro hc
    rw [← e] at hextra
    rw [hextra hc]
    unfold window
    cases cap with
    | none => simp
    | some c => simp; exact hc c rfl

/-- What is written of a document: the transaction and the partial signatures, all with type 1. -/
def Spec.PsbtDoc.kept (d : PsbtDoc) : PsbtDoc :=
  ⟨d.tx, [], d.ins.map fun fs => (fs.filterMap InField.sig).map fun g => .partialSig { g with type := 1 }, d.outs.map fun _ => []⟩

theorem Spec.PsbtDoc.kept_bytes (d : PsbtDoc) (h : d.outs.length = d.tx.outs.length) : d.kept.bytes = sigDoc d.tx (d.ins.map (·.filterMap InField.sig)) := by
  unfold PsbtDoc.bytes PsbtDoc.kept sigDoc
  congr 2
  · rw [List.map_map, List.map_map]
    apply List.map_congr_left
    intro fs _
    simp only [Function.comp, List.map_map]
    rfl
  · apply List.ext_getElem
    · simpa using h
    · intro i h1 h2
      simp

theorem Spec.PsbtDoc.kept_ok (d : PsbtDoc) (h : d.Ok) : d.kept.Ok where
  wire := h.wire
  nonempty := h.nonempty
  nIns := h.nIns
  nOuts := h.nOuts
  count := h.count
  size := h.size
  exact := h.exact
  globals := by simp [PsbtDoc.kept]
  ins := by
    unfold PsbtDoc.kept
    rw [List.forall₂_map_right_iff]
    refine h.ins.imp ?_
    rintro i fs ⟨h1, h2, h3⟩
    refine ⟨?_, ?_, ?_⟩
    · intro f hf
      obtain ⟨g, hg, rfl⟩ := List.mem_map.mp hf
      obtain ⟨f, hf, e⟩ := List.mem_filterMap.mp hg
      cases f with
      | partialSig g' =>
        cases e
        have := h1 _ hf
        exact ⟨this.point, this.der, this.r, this.s⟩
      | _ => cases e
    · rw [List.filterMap_map]
      refine le_trans (List.length_filterMap_le _ _) h2
    · rw [List.filterMap_map]
      have : (InField.key ∘ fun g : SigEntry => InField.partialSig { g with type := 1 }) = fun _ => none := by funext g; rfl
      rw [this]
      simp
  outs := by unfold PsbtDoc.kept; simpa using h.outs
  fields := by
    intro fs hfs
    unfold PsbtDoc.kept at hfs
    obtain ⟨f, -, rfl⟩ := List.mem_map.mp hfs
    simp

theorem Spec.PsbtDoc.Ok.small {d : PsbtDoc} (h : d.Ok) : SmallTx d.tx :=
  ⟨h.nIns, h.nOuts, fun i hi => by have := (h.wire.ins i hi).script; omega, fun o ho => by have := (h.wire.outs o ho).script; omega,
    fun i hi => (h.wire.items i hi).1, fun i hi e he => by have := (h.wire.items i hi).2 e he; omega⟩

/-- C57: an object that holds a document writes the transaction and the signatures, in windows from the start, and `length()` is their size. -/
theorem C57_written_partial {p : PSBT} {d : PsbtDoc} (hd : d.Ok) (h : p.Holds d) (cap : Option Nat) :
    ∃ n, p.toStream cap 0 = .ok (window cap 0 d.kept.bytes, n) ∧ p.length = .ok d.kept.bytes.length ∧
      ((∀ c, cap = some c → d.kept.bytes.length ≤ c) → n = d.kept.bytes.length) := by
  rw [d.kept_bytes hd.outs]
  have hl := hd.ins.length_eq
  refine C57_toStream_partial p d.tx _ h.tx hd.small hd.count (by have := hd.size; omega) ?_ (by rw [List.length_map, hl]) cap
  unfold PSBT.Signed
  rw [List.forall₂_map_right_iff, List.forall₂_iff_get]
  have hi := h.ins.length_eq
  rw [List.length_zip] at hi
  refine ⟨by omega, fun i h1 h2 => ⟨?_, ?_⟩⟩
  · have := (List.forall₂_iff_get.mp h.ins).2 i (by rw [List.length_zip]; omega) h1
    simp only [List.get_eq_getElem, List.getElem_zip] at this
    exact this.sigs
  · intro e he
    have := (List.forall₂_iff_get.mp hd.ins).2 i (by omega) h2
    simp only [List.get_eq_getElem] at this he
    obtain ⟨f, hf, e1⟩ := List.mem_filterMap.mp he
    cases f with
    | partialSig g' => cases e1; exact this.1 _ hf
    | _ => cases e1

/-- C57 (partial): parsing and serializing gives the same bytes back, with `length()` and the return value equal to their number, exactly when
the document has nothing but the transaction and signatures with type 1.  Missing: every other field, which is dropped. -/
theorem C57_roundtrip_partial (junk : Nat → Bytes) {p : PSBT} (hp : p.Clean) (d : PsbtDoc) (hd : d.Ok) (rest : Bytes) :
    let q := (PSBT.fromStream junk p (.of (d.bytes ++ rest))).1
    (q.toStream none 0 = .ok (d.bytes, d.bytes.length) ↔ d.kept.bytes = d.bytes) ∧ q.toStream none 0 = .ok (d.kept.bytes, d.kept.bytes.length) ∧ q.length = .ok d.kept.bytes.length := by
  intro q
  obtain ⟨n, h1, h2, h3⟩ := C57_written_partial hd (C57_parse_partial junk hp d hd rest).2.1 none
  rw [h3 (by simp)] at h1
  have h4 : q.toStream none 0 = .ok (d.kept.bytes, d.kept.bytes.length) := by
    rw [h1]
    unfold window
    simp
  refine ⟨?_, h4, h2⟩
  rw [h4]
  constructor
  · intro h
    have := C.ok.inj h
    exact (Prod.mk.inj this).1
  · intro h
    rw [h]

/-- An object that holds what is kept of a document has nothing else. -/
theorem PSBT.Holds.bare {q : PSBT} {d : PsbtDoc} (hd : d.Ok) (p2 : q.Holds d.kept) :
    (∀ m ∈ q.ins, m.txOut = {} ∧ m.derivations = [] ∧ m.redeemScript.Holds [] ∧ m.witnessScript.Holds []) ∧
      (∀ m ∈ q.outs, m.derivations = [] ∧ m.redeemScript.Holds [] ∧ m.witnessScript.Holds []) ∧ q.fee = .ok 0 := by
  have hs : ∀ (n : Nat) (gs : List SigEntry), lastOf (·.spent n) (gs.map fun g => InField.partialSig { g with type := 1 }) = none ∧
      lastOf InField.redeem (gs.map fun g => InField.partialSig { g with type := 1 }) = none ∧ lastOf InField.witness (gs.map fun g => InField.partialSig { g with type := 1 }) = none ∧
      (gs.map fun g => InField.partialSig { g with type := 1 }).filterMap InField.key = [] := by
    intro n gs
    unfold lastOf
    simp only [List.filterMap_map]
    have f1 : ((fun x : InField => x.spent n) ∘ fun g : SigEntry => InField.partialSig { g with type := 1 }) = fun _ => none := by funext g; rfl
    have f2 : (InField.redeem ∘ fun g : SigEntry => InField.partialSig { g with type := 1 }) = fun _ => none := by funext g; rfl
    have f3 : (InField.witness ∘ fun g : SigEntry => InField.partialSig { g with type := 1 }) = fun _ => none := by funext g; rfl
    have f4 : (InField.key ∘ fun g : SigEntry => InField.partialSig { g with type := 1 }) = fun _ => none := by funext g; rfl
    rw [f1, f2, f3, f4]
    simp
  have hins : ∀ m ∈ q.ins, m.txOut = {} ∧ m.derivations = [] ∧ m.redeemScript.Holds [] ∧ m.witnessScript.Holds [] := by
    intro m hm
    obtain ⟨i, hi, rfl⟩ := List.getElem_of_mem hm
    have hl := p2.ins.length_eq
    have := (List.forall₂_iff_get.mp p2.ins).2 i (by omega) hi
    unfold PsbtDoc.kept at this
    simp only [List.get_eq_getElem, List.getElem_zip, List.getElem_map] at this
    obtain ⟨s1, s2, s3, -, s5⟩ := this
    rw [(hs _ _).1] at s1
    rw [(hs 0 _).2.1] at s2
    rw [(hs 0 _).2.2.1] at s3
    rw [(hs 0 _).2.2.2] at s5
    exact ⟨s1, List.forall₂_nil_right_iff.mp s5, s2, s3⟩
  refine ⟨hins, ?_, ?_⟩
  · intro m hm
    obtain ⟨i, hi, rfl⟩ := List.getElem_of_mem hm
    have hl := p2.outs.length_eq
    have := (List.forall₂_iff_get.mp p2.outs).2 i (by omega) hi
    unfold PsbtDoc.kept at this
    simp only [List.get_eq_getElem, List.getElem_map] at this
    obtain ⟨s1, s2, s3⟩ := this
    exact ⟨List.forall₂_nil_right_iff.mp s3, s1, s2⟩
  · have hl := p2.ins.length_eq
    rw [List.length_zip] at hl
    have h3 := p2.tx.ins.length_eq
    have h4 := (d.kept_ok hd).ins.length_eq
    have h5 : 0 < d.kept.tx.ins.length := List.length_pos_iff.mpr (d.kept_ok hd).nonempty
    have h6 : 0 < q.ins.length := by omega
    exact C55_zero_amount q (by omega) q.ins[0] (List.getElem_mem _) (by rw [(hins _ (List.getElem_mem _)).1])

/-- C57 is false for everything but the transaction and the signatures: after parsing, serializing and parsing again no input has a derivation, a
spent output or a script, no output has a derivation, and the fee is not known. -/
theorem C57_lost (junk : Nat → Bytes) {p p' : PSBT} (hp : p.Clean) (hp' : p'.Clean) (d : PsbtDoc) (hd : d.Ok) (rest rest' : Bytes) :
    ∃ b n, (PSBT.fromStream junk p (.of (d.bytes ++ rest))).1.toStream none 0 = .ok (b, n) ∧
      (PSBT.fromStream junk p' (.of (b ++ rest'))).1.status = .done ∧
      (∀ m ∈ (PSBT.fromStream junk p' (.of (b ++ rest'))).1.ins, m.txOut = {} ∧ m.derivations = [] ∧ m.redeemScript.Holds [] ∧ m.witnessScript.Holds []) ∧
      (∀ m ∈ (PSBT.fromStream junk p' (.of (b ++ rest'))).1.outs, m.derivations = [] ∧ m.redeemScript.Holds [] ∧ m.witnessScript.Holds []) ∧
      (PSBT.fromStream junk p' (.of (b ++ rest'))).1.fee = .ok 0 := by
  have h1 := (C57_roundtrip_partial junk hp d hd rest).2.1
  have h2 := C57_parse_partial junk hp' d.kept (d.kept_ok hd) rest'
  exact ⟨d.kept.bytes, d.kept.bytes.length, h1, h2.1, PSBT.Holds.bare hd h2.2.1⟩

theorem PSBT.emitSections_bare (p : PSBT) (offset : Nat) (h : ∀ m ∈ p.ins, m.signatures = []) (hl : p.tx.txIns.length ≤ p.ins.length) :
    ∀ (n sec : Nat) (out : Bytes) (cur : Nat), p.emitSections offset n sec ⟨none, out⟩ 0 cur = .ok (⟨none, out ++ zeros n⟩, 0)
  | 0, _, out, _ => by simp [emitSections, zeros]
  | n + 1, sec, out, cur => by
    unfold emitSections
    rw [if_pos (show (⟨none, out⟩ : Ser).avail = true from rfl)]
    have e : p.emitPairs ⟨none, out⟩ 0 offset sec cur = .ok (⟨none, out⟩, cur) := by
      unfold emitPairs
      split
      · rw [List.getElem?_eq_getElem (by omega)]
        dsimp only
        rw [h _ (List.getElem_mem _)]
        rfl
      · rfl
    rw [e, C.bind_ok]
    dsimp only
    rw [if_pos (show (⟨none, out⟩ : Ser).avail = true from rfl)]
    change p.emitSections offset n (sec + 1) ⟨none, out ++ [0]⟩ 0 (cur + 1) = _
    rw [PSBT.emitSections_bare p offset h hl n, List.append_assoc]
    rfl

/-- C57 (and C11) are false for serialization in pieces: after the transaction, the delimiters of all sections are written again for every offset, even
one behind the end of the data. -/
theorem C57_offset_ignored (p : PSBT) (h : ∀ m ∈ p.ins, m.signatures = []) (hl : p.tx.txIns.length ≤ p.ins.length) (hn : p.tx.txIns.length + p.tx.txOuts.length ≤ 254)
    (ht : p.tx.length < 2 ^ 64) (offset : Nat) (ho : 7 + (compactSize p.tx.length).length + p.tx.length ≤ offset) :
    p.toStream none offset = .ok (zeros (1 + p.tx.txIns.length + p.tx.txOuts.length), 1 + p.tx.txIns.length + p.tx.txOuts.length) := by
  have hc := compactSize_length p.tx.length
  have he : ∀ (src : Bytes) (lo hi : Nat), hi ≤ offset → (⟨none, []⟩ : Ser).emit src lo hi offset = .ok ⟨none, []⟩ := by
    intro src lo hi h
    unfold Ser.emit Ser.room
    dsimp only
    rw [if_pos (by simp; omega)]
  unfold PSBT.toStream
  dsimp only
  rw [he _ _ _ (by omega), C.bind_ok, writeVarInt_zeros _ 10 ht (by omega), C.bind_ok]
  dsimp only
  rw [he _ _ _ (by omega), C.bind_ok]
  have e2 : ∀ fuel, PSBT.emitTx p.tx (7 + (compactSize p.tx.length).length) offset fuel ⟨none, []⟩ = .ok ⟨none, []⟩ := by
    intro fuel
    cases fuel with
    | zero => rfl
    | succ n =>
      unfold PSBT.emitTx
      rw [if_neg]
      rintro ⟨-, h2⟩
      simp at h2
      omega
  rw [e2, C.bind_ok, PSBT.emitSections_bare p offset h hl, C.bind_ok, UInt8.toNat_ofNat', Nat.mod_eq_of_lt (by omega)]
  simp [zeros]

/-- C57: documents that survive: `exDoc` without everything but its signature. -/
example : exDoc.kept.Ok ∧ exDoc.kept.kept.bytes = exDoc.kept.bytes ∧ (exDoc.kept.ins.map List.length) = [1] := ⟨exDoc.kept_ok exDoc_ok, rfl, rfl⟩

/-- A document that does not survive: it has derivations. -/
example : exDoc.Ok ∧ exDoc.ins.map (fun fs => (fs.filterMap InField.key).length) = [1] ∧ exDoc.kept.ins.map (fun fs => (fs.filterMap InField.key).length) = [0] :=
  ⟨exDoc_ok, rfl, rfl⟩

example : ∃ p : PSBT, (∀ m ∈ p.ins, m.signatures = []) ∧ p.tx.txIns.length ≤ p.ins.length ∧ p.tx.length < 2 ^ 64 ∧ p.tx.txIns.length = 1 :=
  ⟨{ tx := exTx, ins := [{}], outs := [{}, {}] }, by decide, by decide, by decide, rfl⟩

end UB
