import Verif.Lemmas.PSBTPieces
import Verif.Props.PSBTLimits

/-
C74 a PSBT delivered in several pieces.
-/

namespace UB
open Spec

theorem split_left {a b c e : Bytes} (h : a ++ b = c ++ e) (hl : c.length ≤ a.length) : ∃ x, a = c ++ x ∧ x ++ b = e := by
  rcases List.append_eq_append_iff.mp h with ⟨x, h1, h2⟩ | ⟨x, h1, h2⟩
  · have := congrArg List.length h1
    rw [List.length_append] at this
    have hx : x = [] := List.eq_nil_of_length_eq_zero (by omega)
    subst hx
    exact ⟨[], by rw [h1]; simp, h2⟩
  · exact ⟨x, h1, h2.symm⟩

/-- The maps of a document: the other global pairs, the inputs, the outputs. -/
def Spec.PsbtDoc.maps (d : PsbtDoc) : List (List Pair) := d.globals :: (d.ins.map (·.map InField.pair) ++ d.outs.map (·.map OutField.pair))

theorem Spec.PsbtDoc.bytes_eq (d : PsbtDoc) : d.bytes = psbtMagic ++ pairBytes ([0], txBytes d.tx) ++ mapsBytes d.maps := by
  unfold PsbtDoc.bytes psbtBytes maps mapsBytes
  rw [List.flatMap_cons]
  simp only [List.append_assoc]

/-- The pairs of a document are read back as they are written. -/
theorem Spec.PsbtDoc.Ok.good {d : PsbtDoc} (hd : d.Ok) : ∀ m ∈ d.maps, ∀ q ∈ m, PSBT.GoodPair q := by
  intro m hm
  rcases List.mem_cons.mp hm with rfl | hm
  · exact hd.globals
  rcases List.mem_append.mp hm with hm | hm
  · obtain ⟨fs, hfs, rfl⟩ := List.mem_map.mp hm
    obtain ⟨i, hi, rfl⟩ := List.mem_iff_getElem.mp hfs
    have h2 := List.forall₂_iff_get.mp hd.ins
    have h3 := h2.2 i (by omega) hi
    simp only [List.get_eq_getElem] at h3
    have hn := (hd.wire.ins _ (List.getElem_mem (show i < d.tx.ins.length by have := h2.1; omega))).index
    exact (InMeta.safe_all { hash := d.tx.ins[i].prevHash, outputIndex := UInt32.ofNat d.tx.ins[i].prevIndex } _ (by
      dsimp only
      rw [UInt32.toNat_ofNat', Nat.mod_eq_of_lt hn]
      exact h3)).1
  · obtain ⟨fs, hfs, rfl⟩ := List.mem_map.mp hm
    exact (OutMeta.safe_all fs (hd.fields fs hfs)).1

/-- A document inside the limits is accepted. -/
theorem PSBT.accepts_of_ok (junk : Nat → Bytes) {p : PSBT} (hp : p.Clean) {d : PsbtDoc} (hd : d.Ok) :
    ∃ t ms, PSBT.Accepts junk p (txBytes d.tx) d.maps t ms ∧ ∀ q : PSBT, q.tx = t → q.ins = ms.1 → q.outs = ms.2 → q.Holds d := by
  obtain ⟨h1, h2, -, -, -⟩ := C57_parse_partial junk hp d hd []
  rw [d.bytes_eq] at h1 h2
  have l1 := h2.tx.ins.length_eq
  have l2 := h2.tx.outs.length_eq
  have l3 := hd.ins.length_eq
  have l4 := hd.outs
  have l5 := hd.count
  obtain ⟨t, ms, ha, hpar⟩ := PSBT.accepts_of_done junk hp h1 ⟨hd.size, by
    rw [l1, l2, PsbtDoc.maps]
    simp only [List.length_cons, List.length_append, List.length_map]
    omega, by omega, hd.good⟩
  refine ⟨t, ms, ha, fun q e1 e2 e3 => ⟨?_, ?_, ?_⟩⟩
  · rw [e1, ← hpar.tx]; exact h2.tx
  · rw [e2, ← hpar.ins]; exact h2.ins
  · rw [e3, ← hpar.outs]; exact h2.outs

/-! ### C74: what works -/

/-- C74: a document may be delivered in any number of pieces if every cut is inside the value of the first pair, the unsigned transaction:
the object then holds the document, and the calls report the bytes of the document. -/
theorem C74_in_transaction (junk : Nat → Bytes) {p : PSBT} (hp : p.Clean) (d : PsbtDoc) (hd : d.Ok) (rest : Bytes) (cs : List Bytes) (hne : cs ≠ [])
    (hcs : cs.flatten = d.bytes ++ rest)
    (hcut : ∀ i, 0 < i → i < cs.length → 7 < (cs.take i).flatten.length ∧ (cs.take i).flatten.length < 7 + (varBytes (txBytes d.tx)).length) :
    (feedPieces (PSBT.fromStream junk) (·.status) p cs).1.status = .done ∧ (feedPieces (PSBT.fromStream junk) (·.status) p cs).1.Holds d ∧
    (feedPieces (PSBT.fromStream junk) (·.status) p cs).2 = d.bytes.length := by
  obtain ⟨t, ms, ha, hh⟩ := PSBT.accepts_of_ok junk hp hd
  cases cs with
  | nil => exact absurd rfl hne
  | cons c cs =>
    cases cs with
    | nil =>
      rw [List.flatten_cons, List.flatten_nil, List.append_nil] at hcs
      subst hcs
      obtain ⟨h1, h2, h3, -, -⟩ := C57_parse_partial junk hp d hd rest
      unfold feedPieces
      dsimp only
      rw [if_neg (by rw [h1]; simp)]
      exact ⟨h1, h2, h3⟩
    | cons c' cs =>
      have h1 := hcut 1 (by omega) (by simp)
      simp only [List.take_succ_cons, List.take_zero, List.flatten_cons, List.flatten_nil, List.append_nil] at h1
      have hb : d.bytes ++ rest = psbtMagic ++ [1, 0] ++ (varBytes (txBytes d.tx) ++ (mapsBytes d.maps ++ rest)) := by
        rw [d.bytes_eq]
        unfold pairBytes
        simp only [List.append_assoc]
        rfl
      rw [hb, List.flatten_cons] at hcs
      obtain ⟨w, hw⟩ : ∃ w, c = psbtMagic ++ [1, 0] ++ w := by
        have h2 := congrArg (List.take 7) hcs
        rw [List.take_append_of_le_length (by omega), List.take_append_of_le_length (by decide)] at h2
        refine ⟨c.drop 7, ?_⟩
        rw [show psbtMagic ++ [1, 0] = List.take 7 (psbtMagic ++ [1, 0]) from rfl, ← h2, List.take_append_drop]
      subst hw
      rw [List.append_assoc, List.append_cancel_left_eq] at hcs
      have hwl : (psbtMagic ++ [1, 0] ++ w).length = 7 + w.length := by
        rw [List.length_append]; rfl
      rw [hwl] at h1
      have hx : w = (varBytes (txBytes d.tx)).take w.length := by
        have := congrArg (List.take w.length) hcs
        rw [List.take_left, List.take_append_of_le_length (by omega)] at this
        exact this
      have hy : w ++ (varBytes (txBytes d.tx)).drop w.length = varBytes (txBytes d.tx) := by
        nth_rewrite 1 [hx]
        exact List.take_append_drop _ _
      obtain ⟨q, e1, hm⟩ := PSBT.mid_first junk hp hy hd.size (by
        intro h0
        have := congrArg List.length h0
        rw [List.length_drop, List.length_nil] at this
        omega) (by rintro rfl; simp at h1)
      obtain ⟨i1, i2, i3, i4, i5⟩ := PSBT.mid_feed junk hp ha rest (c' :: cs) q w hm hcs (by
        intro i hi
        have := (hcut (i + 1) (by omega) (by rw [List.length_cons]; omega)).2
        rw [List.take_succ_cons, List.flatten_cons, List.length_append, hwl] at this
        omega) (by omega)
      have hst : q.status = .incomplete := by
        obtain ⟨_, _, _, _, _, rfl⟩ := hm
        show p.start.status = _
        rw [PSBT.start_eq hp.status]
      have ef : feedPieces (PSBT.fromStream junk) (·.status) p ((psbtMagic ++ [1, 0] ++ w) :: c' :: cs) =
          ((feedPieces (PSBT.fromStream junk) (·.status) q (c' :: cs)).1, 7 + w.length + (feedPieces (PSBT.fromStream junk) (·.status) q (c' :: cs)).2) := by
        conv_lhs => unfold feedPieces
        rw [List.append_assoc, e1]
        dsimp only
        rw [if_pos hst]
      rw [ef]
      refine ⟨i1, hh _ i2 i3 i4, ?_⟩
      have := congrArg List.length hb
      simp only [List.length_append, show psbtMagic.length = 5 from rfl, List.length_cons, List.length_nil] at this
      dsimp only
      omega

/-! ### C74: what does not -/

/-- C74: nothing shorter than the five bytes of the prefix can be delivered first, the parse is refused for good. -/
theorem C74_short_first (junk : Nat → Bytes) {p : PSBT} (hp : p.Clean) (c : Bytes) (hc : c.length < 5) : (PSBT.fromStream junk p (.of c)).1.status = .failed := by
  rw [PSBT.fromStream_eq junk hp]
  rcases PSBT.readMagic_spec PSBT.magic 0 c with ⟨c', h1, h2⟩ | ⟨h1, h2, h3⟩ | ⟨-, -, h3⟩
  · rw [h1, List.length_append] at hc
    have : PSBT.magic.length = 5 := rfl
    omega
  · rw [h3]
    dsimp only
    exact PSBT.short_fails junk hp _ (by omega)
  · revert h3
    generalize PSBT.readMagic PSBT.magic 0 (.of c) = x
    obtain ⟨b, n, s⟩ := x
    rintro rfl
    rfl

/-- C74: with an object nothing was parsed into before, the first piece must reach the value of the first pair. -/
theorem C74_fresh_first (junk : Nat → Bytes) (n : Nat) (hn : n ≤ 7) :
    (PSBT.fromStream junk {} (.of ((psbtMagic ++ [1, 0]).take n))).1.status = .failed := by
  have h : n < 5 ∨ n = 5 ∨ n = 6 ∨ n = 7 := by omega
  rcases h with h | rfl | rfl | rfl
  · exact C74_short_first junk PSBT.clean_fresh _ (by rw [List.length_take]; omega)
  all_goals rfl

/-- The document without one field of one input. -/
def Spec.PsbtDoc.withoutIn (d : PsbtDoc) (A : List (List InField)) (f1 f2 : List InField) (B : List (List InField)) : PsbtDoc :=
  { d with ins := A ++ (f1 ++ f2) :: B }

theorem Spec.PsbtDoc.Ok.withoutIn {d : PsbtDoc} (hd : d.Ok) {A B : List (List InField)} {f1 f2 : List InField} {f : InField} (h : d.ins = A ++ (f1 ++ f :: f2) :: B) :
    (d.withoutIn A f1 f2 B).Ok := by
  have hi := hd.ins
  rw [h] at hi
  refine ⟨hd.wire, hd.nonempty, hd.nIns, hd.nOuts, hd.count, hd.size, hd.exact, hd.globals, ?_, hd.outs, hd.fields⟩
  show List.Forall₂ _ d.tx.ins (A ++ (f1 ++ f2) :: B)
  have hx := List.forall₂_take_append _ _ _ hi
  have hy := List.forall₂_drop_append _ _ _ hi
  rw [← List.take_append_drop A.length d.tx.ins]
  generalize List.take A.length d.tx.ins = x at hx
  generalize List.drop A.length d.tx.ins = y at hy
  cases hy with
  | cons h1 h2 =>
    refine List.rel_append hx (.cons ⟨?_, ?_, ?_⟩ h2)
    · intro g hg
      apply h1.1 g
      rcases List.mem_append.mp hg with hg | hg
      · exact List.mem_append_left _ hg
      · exact List.mem_append_right _ (List.mem_cons_of_mem _ hg)
    · refine le_trans (List.Sublist.length_le (List.Sublist.filterMap _ ?_)) h1.2.1
      exact List.Sublist.append_left (List.sublist_cons_self _ _) _
    · refine le_trans (List.Sublist.length_le (List.Sublist.filterMap _ ?_)) h1.2.2
      exact List.Sublist.append_left (List.sublist_cons_self _ _) _

/-- The document without one field of one output. -/
def Spec.PsbtDoc.withoutOut (d : PsbtDoc) (A : List (List OutField)) (f1 f2 : List OutField) (B : List (List OutField)) : PsbtDoc :=
  { d with outs := A ++ (f1 ++ f2) :: B }

theorem Spec.PsbtDoc.Ok.withoutOut {d : PsbtDoc} (hd : d.Ok) {A B : List (List OutField)} {f1 f2 : List OutField} {f : OutField} (h : d.outs = A ++ (f1 ++ f :: f2) :: B) :
    (d.withoutOut A f1 f2 B).Ok := by
  have ho := hd.outs
  have hf := hd.fields
  rw [h] at ho hf
  refine ⟨hd.wire, hd.nonempty, hd.nIns, hd.nOuts, hd.count, hd.size, hd.exact, hd.globals, hd.ins, ?_, ?_⟩
  · rw [show (d.withoutOut A f1 f2 B).tx = d.tx from rfl, ← ho, PsbtDoc.withoutOut]
    simp only [List.length_append, List.length_cons]
  · intro fs hfs
    rcases List.mem_append.mp (show fs ∈ A ++ (f1 ++ f2) :: B from hfs) with hfs | hfs
    · exact hf fs (List.mem_append_left _ hfs)
    rcases List.mem_cons.mp hfs with rfl | hfs
    · obtain ⟨h1, h2⟩ := hf (f1 ++ f :: f2) (List.mem_append_right _ (List.mem_cons_self ..))
      refine ⟨fun g hg => h1 g ?_, le_trans (List.Sublist.length_le (List.Sublist.filterMap _ (List.Sublist.append_left (List.sublist_cons_self _ _) _))) h2⟩
      rcases List.mem_append.mp hg with hg | hg
      · exact List.mem_append_left _ hg
      · exact List.mem_append_right _ (List.mem_cons_of_mem _ hg)
    · exact hf fs (List.mem_append_right _ (List.mem_cons_of_mem _ hfs))

/-- The position `n` is the start of the pair `q`, which begins at `start`, or lies inside its value. -/
def Spec.CutsPair (n start : Nat) (q : Pair) : Prop := n = start ∨ (start + (varBytes q.1).length < n ∧ n < start + (pairBytes q).length)

/-- C74: one cut, at the start of a pair that follows the transaction or inside its value: the pair is dropped without notice.  The parse ends
DONE and the object holds the document without that pair. -/
theorem C74_pair_lost (junk : Nat → Bytes) {p : PSBT} (hp : p.Clean) (d : PsbtDoc) (hd : d.Ok) {pre post : List (List Pair)} {qs1 qs2 : List Pair}
    (hm : d.maps = pre ++ (qs1 ++ qs2) :: post) (q0 : Pair) (h0 : q0.1 ≠ []) (h1 : q0.1.length < 2 ^ 31) (h2 : q0.2.length < 2 ^ 31) (rest a b : Bytes)
    (hab : a ++ b = psbtMagic ++ pairBytes ([0], txBytes d.tx) ++ mapsBytes (pre ++ (qs1 ++ q0 :: qs2) :: post) ++ rest)
    (hcut : CutsPair a.length (psbtMagic ++ pairBytes ([0], txBytes d.tx) ++ mapsBytes pre ++ qs1.flatMap pairBytes).length q0) :
    (feedPieces (PSBT.fromStream junk) (·.status) p [a, b]).1.status = .done ∧ (feedPieces (PSBT.fromStream junk) (·.status) p [a, b]).1.Holds d ∧
    (feedPieces (PSBT.fromStream junk) (·.status) p [a, b]).2 + rest.length = (a ++ b).length := by
  obtain ⟨t, ms, ha, hh⟩ := PSBT.accepts_of_ok junk hp hd
  rw [hm] at ha
  generalize hH : psbtMagic ++ pairBytes ([0], txBytes d.tx) ++ mapsBytes pre ++ qs1.flatMap pairBytes = H at hcut
  unfold CutsPair at hcut
  have e0 : a ++ b = H ++ (pairBytes q0 ++ (mapsBytes (qs2 :: post) ++ rest)) := by
    rw [hab, ← hH]
    unfold mapsBytes mapBytes
    simp only [List.flatMap_append, List.flatMap_cons, List.append_assoc]
  obtain ⟨x, rfl, e1⟩ := split_left e0 (by omega)
  rw [List.length_append] at hcut
  obtain ⟨y, hy, hb⟩ := split_left e1.symm (by omega)
  subst hb
  have hc : PSBT.CutAt q0 x y := by
    rcases hcut with h | ⟨h3, h4⟩
    · have : x = [] := List.eq_nil_of_length_eq_zero (by omega)
      subst this
      exact Or.inl ⟨rfl, hy.symm⟩
    · right
      have h5 := congrArg List.length hy
      rw [List.length_append] at h5
      unfold pairBytes at hy
      obtain ⟨w, rfl, e4⟩ := split_left hy.symm (by omega)
      rw [List.length_append] at h3 h5
      refine ⟨w, ?_, ?_, e4, rfl⟩
      · rintro rfl; simp at h3
      · rintro rfl; rw [List.length_append, List.length_nil] at *; omega
  have hA : H ++ x = psbtMagic ++ pairBytes ([0], txBytes d.tx) ++ (mapsBytes pre ++ (qs1.flatMap pairBytes ++ x)) := by
    rw [← hH]; simp only [List.append_assoc]
  obtain ⟨hst, hpar⟩ := PSBT.pair_lost junk hp ha ⟨fun _ => h0, h1, h2⟩ hc rest rfl
  obtain ⟨-, -, -, -, hn⟩ := PSBT.first_call junk hp ha ⟨fun _ => h0, h1, h2⟩ hc rfl
  rw [← hA] at hst hpar hn
  unfold feedPieces
  dsimp only
  rw [if_pos hst]
  unfold feedPieces
  dsimp only
  rw [if_neg (by rw [hpar.status]; simp)]
  refine ⟨hpar.status, hh _ hpar.tx hpar.ins hpar.outs, ?_⟩
  dsimp only
  rw [hn, hpar.read]
  simp only [List.length_append]
  omega

/-- C74: a field of an input that is cut in this way is missing from the object, although all bytes of the document were delivered. -/
theorem C74_input_field_lost (junk : Nat → Bytes) {p : PSBT} (hp : p.Clean) (d : PsbtDoc) (hd : d.Ok) {A B : List (List InField)} {f1 f2 : List InField} {f : InField}
    (h : d.ins = A ++ (f1 ++ f :: f2) :: B) (rest a b : Bytes) (hab : a ++ b = d.bytes ++ rest)
    (hcut : CutsPair a.length (psbtMagic ++ pairBytes ([0], txBytes d.tx) ++ mapsBytes (d.globals :: A.map (·.map InField.pair)) ++ (f1.map InField.pair).flatMap pairBytes).length f.pair) :
    (feedPieces (PSBT.fromStream junk) (·.status) p [a, b]).1.status = .done ∧ (feedPieces (PSBT.fromStream junk) (·.status) p [a, b]).1.Holds (d.withoutIn A f1 f2 B) ∧
    (feedPieces (PSBT.fromStream junk) (·.status) p [a, b]).2 = d.bytes.length := by
  have hg := hd.good ((f1 ++ f :: f2).map InField.pair) (by
    unfold PsbtDoc.maps
    rw [h, List.map_append, List.map_cons]
    simp) f.pair (by simp)
  have hm : (d.withoutIn A f1 f2 B).maps = (d.globals :: A.map (·.map InField.pair)) ++ (f1.map InField.pair ++ f2.map InField.pair) ::
      (B.map (·.map InField.pair) ++ d.outs.map (·.map OutField.pair)) := by
    unfold PsbtDoc.maps PsbtDoc.withoutIn
    simp only [List.map_append, List.map_cons, List.cons_append, List.append_assoc]
  have hm2 : d.maps = (d.globals :: A.map (·.map InField.pair)) ++ (f1.map InField.pair ++ f.pair :: f2.map InField.pair) ::
      (B.map (·.map InField.pair) ++ d.outs.map (·.map OutField.pair)) := by
    unfold PsbtDoc.maps
    rw [h]
    simp only [List.map_append, List.map_cons, List.cons_append, List.append_assoc]
  rw [d.bytes_eq, hm2] at hab
  obtain ⟨h1, h2, h3⟩ := C74_pair_lost junk hp (d.withoutIn A f1 f2 B) (hd.withoutIn h) hm f.pair hg.1 hg.2.1 hg.2.2 rest a b hab hcut
  refine ⟨h1, h2, ?_⟩
  rw [hab, ← hm2, ← d.bytes_eq, List.length_append] at h3
  omega

/-- C74: the same for a field of an output, such as the key that makes it change. -/
theorem C74_output_field_lost (junk : Nat → Bytes) {p : PSBT} (hp : p.Clean) (d : PsbtDoc) (hd : d.Ok) {A B : List (List OutField)} {f1 f2 : List OutField} {f : OutField}
    (h : d.outs = A ++ (f1 ++ f :: f2) :: B) (rest a b : Bytes) (hab : a ++ b = d.bytes ++ rest)
    (hcut : CutsPair a.length (psbtMagic ++ pairBytes ([0], txBytes d.tx) ++ mapsBytes (d.globals :: (d.ins.map (·.map InField.pair) ++ A.map (·.map OutField.pair)))
      ++ (f1.map OutField.pair).flatMap pairBytes).length f.pair) :
    (feedPieces (PSBT.fromStream junk) (·.status) p [a, b]).1.status = .done ∧ (feedPieces (PSBT.fromStream junk) (·.status) p [a, b]).1.Holds (d.withoutOut A f1 f2 B) ∧
    (feedPieces (PSBT.fromStream junk) (·.status) p [a, b]).2 = d.bytes.length := by
  have hg := hd.good ((f1 ++ f :: f2).map OutField.pair) (by
    unfold PsbtDoc.maps
    rw [h, List.map_append (l₁ := A), List.map_cons]
    simp) f.pair (by simp)
  have hm : (d.withoutOut A f1 f2 B).maps = (d.globals :: (d.ins.map (·.map InField.pair) ++ A.map (·.map OutField.pair))) ++ (f1.map OutField.pair ++ f2.map OutField.pair) ::
      B.map (·.map OutField.pair) := by
    unfold PsbtDoc.maps PsbtDoc.withoutOut
    simp only [List.map_append, List.map_cons, List.cons_append, List.append_assoc]
  have hm2 : d.maps = (d.globals :: (d.ins.map (·.map InField.pair) ++ A.map (·.map OutField.pair))) ++ (f1.map OutField.pair ++ f.pair :: f2.map OutField.pair) ::
      B.map (·.map OutField.pair) := by
    unfold PsbtDoc.maps
    rw [h]
    simp only [List.map_append, List.map_cons, List.cons_append, List.append_assoc]
  rw [d.bytes_eq, hm2] at hab
  obtain ⟨h1, h2, h3⟩ := C74_pair_lost junk hp (d.withoutOut A f1 f2 B) (hd.withoutOut h) hm f.pair hg.1 hg.2.1 hg.2.2 rest a b hab hcut
  refine ⟨h1, h2, ?_⟩
  rw [hab, ← hm2, ← d.bytes_eq, List.length_append] at h3
  omega

/-- C74: if the last byte of the document comes alone, the parse is never complete. -/
theorem C74_last_byte (junk : Nat → Bytes) {p : PSBT} (hp : p.Clean) (d : PsbtDoc) (hd : d.Ok) (a : Bytes) (hab : a ++ [0] = d.bytes) :
    (feedPieces (PSBT.fromStream junk) (·.status) p [a, [0]]).1.status ≠ .done := by
  obtain ⟨t, ms, ha, hh⟩ := PSBT.accepts_of_ok junk hp hd
  obtain ⟨pre, m, hm⟩ : ∃ pre m, d.maps = pre ++ [m] := by
    have : d.maps ≠ [] := by unfold PsbtDoc.maps; simp
    exact ⟨d.maps.dropLast, d.maps.getLast this, (List.dropLast_append_getLast this).symm⟩
  rw [hm] at ha
  rw [d.bytes_eq, hm] at hab
  have e0 : a = psbtMagic ++ pairBytes ([0], txBytes d.tx) ++ (mapsBytes pre ++ (m.flatMap pairBytes ++ [])) := by
    have : psbtMagic ++ pairBytes ([0], txBytes d.tx) ++ mapsBytes (pre ++ [m]) = psbtMagic ++ pairBytes ([0], txBytes d.tx) ++ (mapsBytes pre ++ m.flatMap pairBytes) ++ [0] := by
      unfold mapsBytes mapBytes
      simp only [List.flatMap_append, List.flatMap_cons, List.flatMap_nil, List.append_assoc, List.append_nil]
    rw [this] at hab
    rw [List.append_nil]
    exact List.append_cancel_right hab
  subst e0
  have ha' : PSBT.Accepts junk p (txBytes d.tx) (pre ++ (m ++ []) :: []) t ms := by rw [List.append_nil]; exact ha
  obtain ⟨P, hB, hw, hb, hn⟩ := PSBT.first_call junk hp ha' (q0 := ([1], [])) (x := []) ⟨by simp, by simp, by simp⟩ (y := pairBytes ([1], [])) (Or.inl ⟨rfl, rfl⟩) rfl
  generalize hq : PSBT.fromStream junk p (.of (psbtMagic ++ pairBytes ([0], txBytes d.tx) ++ (mapsBytes pre ++ (m.flatMap pairBytes ++ [])))) = x at hw hb
  obtain ⟨q, n, s⟩ := x
  dsimp only at hw hb
  unfold feedPieces
  rw [hq]
  dsimp only
  rw [if_pos hw.status]
  have key : (PSBT.fromStream junk q (.of [0])).1.status ≠ .done := by
    have hP5 := hB.pos
    rw [PSBT.fromStream_again junk q hw.status (by rw [hb]; omega)]
    unfold PSBT.readGlobal
    rw [if_pos (by rw [hb, hw.pos]; simp)]
    obtain ⟨k', e1, h1, h2⟩ := Script.ready_var hw.key [] [] (by decide)
    have e1' : q.key.fromStream (.of [0]) = (k', 1, .of []) := e1
    unfold PSBT.parseKey
    rw [e1']
    dsimp only
    unfold PSBT.parseValue
    dsimp only
    have hv : q.value.Ready := by
      rcases hw.value with ⟨-, h⟩ | ⟨w, h3, h4, -⟩
      · exact h
      · exact absurd (List.append_eq_nil_iff.mp h4.symm).2 h3
    obtain ⟨h5, h6⟩ := Script.empty_ready q.value hv
    generalize q.value.fromStream (.of []) = x at h5 h6
    obtain ⟨v, n2, s2⟩ := x
    dsimp only at h5 h6 ⊢
    subst h5
    unfold PSBT.globalKey
    dsimp only
    rw [if_neg (show ¬ ((PStream.of []).avail = true ∧ k'.status = .incomplete) by simp)]
    dsimp only
    rw [if_neg (by rw [h1]; simp), if_neg (by rw [h1]; simp)]
    unfold PSBT.globalValue
    dsimp only
    rw [if_neg (show ¬ ((PStream.of []).avail = true ∧ v.status = .incomplete) by simp)]
    dsimp only
    rcases h6 with h6 | h6
    · rw [if_neg (by rw [h6]; simp), if_pos h6]
      simp [PSBT.finish]
    · have := h6.status
      rw [if_neg (by rw [this]; simp), if_neg (by rw [this]; simp)]
      unfold PSBT.afterGlobal
      rw [if_neg (by dsimp only; rw [hw.pos]; omega), PSBT.loop_empty]
      have hls := ha.sections
      rw [List.length_append, List.length_singleton] at hls
      have hlt : q.sec < ({ q with key := k', value := v } : PSBT).sections := by
        have e2 : ({ q with key := k', value := v } : PSBT).sections = P.sections := PSBT.sections_eq hw.tx hP5 (by dsimp only; rw [hw.pos]; exact hP5)
        rw [e2, hw.sec, hB.sec, hB.sections, UInt8.lt_iff_toNat_lt, ← hls, UInt8.toNat_ofNat']
        omega
      have hfin := PSBT.finishAll_more { q with key := k', value := v } (0 + 1 + n2) (.of []) hlt hw.status
      rw [hfin]
      dsimp only
      rw [hw.status]
      simp
  unfold feedPieces
  dsimp only
  split_ifs with h
  · unfold feedPieces
    dsimp only
    rw [h]; simp
  · exact key

/-! ### Examples -/

/-- The transaction of `exDoc` in three pieces. -/
example (junk : Nat → Bytes) : (feedPieces (PSBT.fromStream junk) (·.status) {} [exDoc.bytes.take 8, (exDoc.bytes.drop 8).take 2, exDoc.bytes.drop 10]).1.Holds exDoc := by
  have hl : 69 ≤ exDoc.bytes.length := by
    rw [exDoc.bytes_eq, List.length_append, List.length_append, pairBytes, List.length_append, varBytes, List.length_append, varBytes, List.length_append,
      show exDoc.tx = exPsbtTx from rfl, exPsbtTx_length]
    have h1 : (compactSize 61).length = 1 := rfl
    have h2 : psbtMagic.length = 5 := rfl
    have h3 : (compactSize ([0] : Bytes).length).length = 1 := rfl
    rw [h1, h2, h3, List.length_singleton]
    omega
  refine (C74_in_transaction junk PSBT.clean_fresh exDoc exDoc_ok [] _ (by simp) ?_ ?_).2.1
  · simp only [List.flatten_cons, List.flatten_nil, List.append_nil]
    rw [← List.drop_drop (i := 2) (j := 8), List.take_append_drop, List.take_append_drop]
  · intro i h0 hi
    have e : (varBytes (txBytes exDoc.tx)).length = 62 := by
      rw [varBytes, List.length_append, show exDoc.tx = exPsbtTx from rfl, exPsbtTx_length]; rfl
    rw [e]
    have : i = 1 ∨ i = 2 := by simp at hi; omega
    rcases this with rfl | rfl
    · simp; omega
    · simp; omega

/-- The redeem script of `exDoc` is lost when the first piece ends just before it. -/
example (junk : Nat → Bytes) : ∃ a b, a ++ b = exDoc.bytes ∧ (feedPieces (PSBT.fromStream junk) (·.status) {} [a, b]).1.status = .done ∧
    (feedPieces (PSBT.fromStream junk) (·.status) {} [a, b]).1.Holds
      (exDoc.withoutIn [] [.prevTx exTxSpec] [.origin exOrigin, .partialSig exSigEntry, .other ([9, 9], [])] []) := by
  obtain ⟨n, hn⟩ : ∃ n, n = (psbtMagic ++ pairBytes ([0], txBytes exDoc.tx) ++ mapsBytes (exDoc.globals :: ([] : List (List InField)).map (·.map InField.pair))
      ++ (([.prevTx exTxSpec] : List InField).map InField.pair).flatMap pairBytes).length := ⟨_, rfl⟩
  have hl : n ≤ exDoc.bytes.length := by
    have h1 : exDoc.bytes = (psbtMagic ++ pairBytes ([0], txBytes exDoc.tx) ++ mapsBytes (exDoc.globals :: ([] : List (List InField)).map (·.map InField.pair))
        ++ (([.prevTx exTxSpec] : List InField).map InField.pair).flatMap pairBytes) ++
        ((([.redeemScript [0x51], .origin exOrigin, .partialSig exSigEntry, .other ([9, 9], [])] : List InField).map InField.pair).flatMap pairBytes ++ [0] ++
          mapsBytes (exDoc.outs.map (·.map OutField.pair))) := by
      rw [exDoc.bytes_eq]
      simp only [PsbtDoc.maps, mapsBytes, mapBytes, show exDoc.ins = [[.prevTx exTxSpec, .redeemScript [0x51], .origin exOrigin, .partialSig exSigEntry, .other ([9, 9], [])]] from rfl,
        List.map_cons, List.map_nil, List.flatMap_cons, List.flatMap_nil, List.append_assoc, List.append_nil, List.nil_append, List.cons_append]
    rw [h1, List.length_append, ← hn]
    omega
  obtain ⟨h1, h2, -⟩ := C74_input_field_lost junk PSBT.clean_fresh exDoc exDoc_ok (A := []) (B := []) (f1 := [.prevTx exTxSpec])
    (f2 := [.origin exOrigin, .partialSig exSigEntry, .other ([9, 9], [])]) (f := .redeemScript [0x51]) rfl [] (exDoc.bytes.take n) (exDoc.bytes.drop n)
    (by rw [List.take_append_drop, List.append_nil]) (Or.inl (by rw [List.length_take, Nat.min_eq_left hl, hn]))
  exact ⟨_, _, List.take_append_drop n _, h1, h2⟩

/-- The last byte of `exDoc` alone. -/
example (junk : Nat → Bytes) : (feedPieces (PSBT.fromStream junk) (·.status) {} [exDoc.bytes.dropLast, [0]]).1.status ≠ .done := by
  refine C74_last_byte junk PSBT.clean_fresh exDoc exDoc_ok _ ?_
  rw [exDoc.bytes_eq]
  have : mapsBytes exDoc.maps = mapsBytes exDoc.maps.dropLast ++ ((([.origin exOrigin, .witnessScript [0x52]] : List OutField).map OutField.pair).flatMap pairBytes) ++ [0] := by
    simp only [PsbtDoc.maps, mapsBytes, mapBytes, show exDoc.ins = [[.prevTx exTxSpec, .redeemScript [0x51], .origin exOrigin, .partialSig exSigEntry, .other ([9, 9], [])]] from rfl,
      show exDoc.outs = [[.origin exOrigin, .witnessScript [0x52]]] from rfl, List.map_cons, List.map_nil, List.flatMap_cons, List.flatMap_nil, List.append_assoc,
      List.append_nil, List.nil_append, List.cons_append, List.dropLast_cons_cons, List.dropLast_singleton]
  rw [this, ← List.append_assoc, ← List.append_assoc, List.dropLast_concat]

end UB
