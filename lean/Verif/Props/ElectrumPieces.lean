import Verif.Props.Electrum
import Verif.Props.Parse
import Verif.Lemmas.ElectrumStep
import Verif.Props.Build
import Verif.Model.Copy

/-
C72: documents of the Electrum wallet read in pieces.
C78: Electrum objects copied in the middle of a document.
-/

namespace UB
open Spec

namespace ElectrumTx

/-- A prefix of a transaction with inputs but without witnesses is not finished, and the parser of transactions takes it as such. -/
theorem legacy_prefix {y : Transaction} (h : WireTx y) (hnw : ¬ hasWitness y) (h0 : y.ins ≠ []) (hi : y.ins.length < 253) (ho : y.outs.length < 253)
    {p d : Bytes} (hp : p ++ d = txBytes y) (hd : d ≠ []) : Spec.readTx p = .more ∧ ¬ Fragile p := by
  constructor
  · have hc := readTx_complete y h h0 hi ho []
    rw [List.append_nil] at hc
    cases e : Spec.readTx p with
    | more => rfl
    | bad =>
      have := readTx_bad_mono d e
      rw [hp, hc] at this
      cases this
    | ok z r =>
      have := readTx_mono d e
      rw [hp, hc] at this
      simp only [Outcome.ok.injEq] at this
      exact absurd (List.append_eq_nil_iff.mp this.2.symm).2 hd
  · intro hf
    have h4 := fragile_byte hf
    have : (txBytes y)[4]? = some 0 := by
      rw [← hp, List.getElem?_append_left]
      · exact h4
      · exact (List.getElem?_eq_some_iff.mp h4).1
    rw [txBytes, if_neg hnw, legacyBytes] at this
    have hcs : compactSize y.ins.length = [UInt8.ofNat y.ins.length] := by
      rw [compactSize, if_pos hi]
    have hl : 0 < y.ins.length := List.length_pos_iff.mpr h0
    rw [hcs] at this
    simp only [List.append_assoc] at this
    rw [List.getElem?_append_right (by simp), length_leBytes] at this
    simp only [Nat.sub_self, List.cons_append, List.getElem?_cons_zero, Option.some.injEq] at this
    have := congrArg UInt8.toNat this
    simp at this
    omega

/-- The object after a whole document without segwit inputs. -/
structure ReadLegacy (e : ElectrumTx) (x : Transaction) (ks : List (Bytes × ElectrumKey)) : Prop where
  status : e.status = .done
  segwit : e.isSegwit = false
  tx : e.tx.Holds x
  metas : List.Forall₂ (fun m k => m.Says k.2 none) e.metas ks

theorem legacy_last (junk : Bytes) (fuel : Nat) {e : ElectrumTx} {x : Transaction} (h : WireTx x) (h0 : x.ins ≠ [])
    (hi : x.ins.length < 253) (ho : x.outs.length < 253) (hx : ∀ i ∈ x.ins, i.script = [] ∧ i.witness = []) {ks : List (Bytes × ElectrumKey)}
    (hk : ∀ k ∈ ks, k.1.length = 5 ∧ k.2.Ok ∧ k.2.Good) (hl : x.ins.length = ks.length) {p c r : Bytes} (he : Early e p)
    (hp : p.length < (electrumLegacy x ks).length) (hD : p ++ c = electrumLegacy x ks ++ r) :
    ∃ e', fromStream junk fuel e (.of c) = some (e', (electrumLegacy x ks).length - p.length, .of r) ∧ ReadLegacy e' x ks := by
  obtain ⟨hyw, hnw, hy0, hyl, hdoc⟩ := legacyDoc_facts h h0 hx hk hl
  generalize hy : legacyDoc x ks = y at *
  have hyo : y.outs.length < 253 := by rw [← hy]; exact ho
  have hins : y.ins = x.ins.zipWith (fun i k => { i with script := electrumScript k.1 k.2 }) ks := by rw [← hy]; rfl
  have houts : y.outs = x.outs := by rw [← hy]; rfl
  have hver : y.version = x.version := by rw [← hy]; rfl
  have hlock : y.locktime = x.locktime := by rw [← hy]; rfl
  rw [hdoc] at hp hD ⊢
  rw [List.append_assoc] at hD
  obtain ⟨e1, e2, -⟩ := early_call junk fuel he (D := txBytes y ++ r) ⟨[], by rw [List.append_nil, hD]⟩
  have hd : (p ++ c).drop 6 = txBytes y ++ r := by rw [hD]; rfl
  have hlen := congrArg List.length hD
  simp only [List.length_append] at hlen hp
  rw [show electrumMagic.length = 6 from rfl] at hlen hp
  have hpos : 0 < (txBytes y).length := by
    rw [txBytes, if_neg hnw, legacyBytes]
    simp
  have hfeed := Tx.feed e.tx (p.drop 6) (c.drop (6 - p.length)) he.tx
  unfold Tx.Out at hfeed
  rw [e2, hd, readTx_complete y hyw hy0 (by omega) hyo r] at hfeed
  dsimp only at hfeed
  have hav : (PStream.of (c.drop (6 - p.length))).avail = true := by
    cases hh : c.drop (6 - p.length) with
    | nil =>
      have := congrArg List.length hh
      rw [List.length_drop, List.length_nil] at this
      omega
    | cons a b => rfl
  rw [e1]
  unfold readTx
  rw [if_pos ⟨he.legacy, hav, he.notfailed⟩]
  generalize e.tx.fromStream (.of (c.drop (6 - p.length))) = R at hfeed
  obtain ⟨t, n, s⟩ := R
  dsimp only at hfeed
  obtain ⟨p1, p2, p3, rfl⟩ := hfeed
  obtain ⟨ts', ms, m1, m2, m3⟩ := legacyMetas_eq junk x.ins ks _ hl hk (by have := p2.ins; rwa [hins] at this)
  dsimp only
  rw [p1, if_neg (by decide), if_pos rfl, m1]
  dsimp only
  rw [if_pos rfl]
  unfold afterTx
  dsimp only
  rw [if_neg (by decide)]
  unfold readSegwit
  dsimp only
  rw [he.legacy, if_neg (by simp)]
  have hn : (c.take (6 - p.length)).length + n = (electrumMagic ++ txBytes y).length - p.length := by
    rw [List.length_append, List.length_drop] at p3
    rw [List.length_take, List.length_append, show electrumMagic.length = 6 from rfl]
    omega
  rw [hn]
  refine ⟨_, rfl, rfl, rfl, ⟨by have := p2.version; rwa [hver] at this, ?_, by have := p2.outs; rwa [houts] at this, by have := p2.locktime; rwa [hlock] at this⟩, m3⟩
  have : x.ins.map (fun i => ({ i with script := [] } : In)) = x.ins := by
    conv_rhs => rw [← List.map_id x.ins]
    apply List.map_congr_left
    intro i hi
    have := (hx i hi).1
    cases i; simp_all
  rwa [this] at m2

/-- A document without segwit inputs in pieces. -/
theorem legacy_feed (junk : Bytes) (fuel : Nat) {x : Transaction} (h : WireTx x) (h0 : x.ins ≠ [])
    (hi : x.ins.length < 253) (ho : x.outs.length < 253) (hx : ∀ i ∈ x.ins, i.script = [] ∧ i.witness = []) {ks : List (Bytes × ElectrumKey)}
    (hk : ∀ k ∈ ks, k.1.length = 5 ∧ k.2.Ok ∧ k.2.Good) (hl : x.ins.length = ks.length) {rest : Bytes} : ∀ (cs : List Bytes) {e : ElectrumTx} {p : Bytes},
    Early e p → p ++ cs.flatten <+: electrumLegacy x ks ++ rest → p.length < (electrumLegacy x ks).length →
    ((p ++ cs.flatten).length < (electrumLegacy x ks).length → cs ≠ [] →
      ∃ e', feedPiecesOpt (fromStream junk fuel) ElectrumTx.status e cs = some (e', cs.flatten.length) ∧ e'.status = .incomplete) ∧
    ((electrumLegacy x ks).length ≤ (p ++ cs.flatten).length →
      ∃ e', feedPiecesOpt (fromStream junk fuel) ElectrumTx.status e cs = some (e', (electrumLegacy x ks).length - p.length) ∧ ReadLegacy e' x ks)
  | [], e, p, he, hD, hp => by
    refine ⟨fun _ h => absurd rfl h, fun hge => ?_⟩
    rw [List.flatten_nil, List.append_nil] at hge
    omega
  | c :: cs, e, p, he, hD, hp => by
    rw [List.flatten_cons, ← List.append_assoc] at hD
    have hpc : (p ++ c).length = p.length + c.length := List.length_append ..
    have hpf : (p ++ (c :: cs).flatten).length = p.length + c.length + cs.flatten.length := by
      rw [List.flatten_cons, List.length_append, List.length_append]; omega
    have hpf' : ((p ++ c) ++ cs.flatten).length = p.length + c.length + cs.flatten.length := by
      rw [List.length_append, hpc]
    have hD1 : p ++ c <+: electrumLegacy x ks ++ rest := (List.prefix_append _ _).trans hD
    unfold feedPiecesOpt
    by_cases hc : (p ++ c).length < (electrumLegacy x ks).length
    · obtain ⟨hyw, hnw, hy0, hyl, hdoc⟩ := legacyDoc_facts h h0 hx hk hl
      have hpre : p ++ c <+: electrumMagic ++ txBytes (legacyDoc x ks) := by
        rw [← hdoc]
        exact List.prefix_of_prefix_length_le hD1 (List.prefix_append _ _) (by omega)
      obtain ⟨d, hd⟩ := (early_call junk fuel he hpre).2.2
      have hd0 : d ≠ [] := by
        rintro rfl
        have := congrArg List.length hd
        rw [hdoc, List.length_append (as := electrumMagic), show electrumMagic.length = 6 from rfl] at hc
        rw [List.length_append, List.length_drop, List.length_nil] at this
        have hpos : 4 ≤ (txBytes (legacyDoc x ks)).length := by
          rw [txBytes, if_neg hnw, legacyBytes]
          simp [List.length_append]
        omega
      obtain ⟨q1, q2⟩ := legacy_prefix hyw hnw hy0 (by omega) ho hd hd0
      obtain ⟨e1, a1, a2⟩ := early_more junk fuel he hpre q1 q2
      obtain ⟨r1, r2⟩ := legacy_feed junk fuel h h0 hi ho hx hk hl cs a2 hD hc
      rw [a1]
      dsimp only
      rw [if_pos a2.status]
      constructor
      · intro hlt _
        cases cs with
        | nil => exact ⟨e1, by simp [feedPiecesOpt], a2.status⟩
        | cons c' cs' =>
          obtain ⟨e', b1, b2⟩ := r1 (by omega) (by simp)
          exact ⟨e', by rw [b1, List.flatten_cons (l := c), List.length_append], b2⟩
      · intro hge
        obtain ⟨e', b1, b2⟩ := r2 (by omega)
        refine ⟨e', ?_, b2⟩
        rw [b1]
        dsimp only
        rw [show c.length + ((electrumLegacy x ks).length - (p ++ c).length) = (electrumLegacy x ks).length - p.length by omega]
    · obtain ⟨r, hr⟩ : electrumLegacy x ks <+: p ++ c := List.prefix_of_prefix_length_le (List.prefix_append _ _) hD1 (by omega)
      obtain ⟨e1, a1, a2⟩ := legacy_last junk fuel h h0 hi ho hx hk hl he hp hr.symm
      rw [a1]
      dsimp only
      rw [if_neg (by rw [a2.status]; decide)]
      exact ⟨fun hlt => by omega, fun _ => ⟨e1, rfl, a2⟩⟩

theorem feed_start (junk : Bytes) (fuel : Nat) {e : ElectrumTx} (he : e.status = .done) {cs : List Bytes} (h0 : cs ≠ []) :
    feedPiecesOpt (fromStream junk fuel) ElectrumTx.status e cs = feedPiecesOpt (fromStream junk fuel) ElectrumTx.status ({ status := .incomplete } : ElectrumTx) cs := by
  cases cs with
  | nil => exact absurd rfl h0
  | cons c cs =>
    unfold feedPiecesOpt
    rw [fromStream_start junk fuel he]

end ElectrumTx

open ElectrumTx in
/-- C72: a segwit document for one to five inputs is understood in whatever pieces it comes, as long as no piece ends inside the length of the script of the
last output (of several bytes if the script has 253 bytes or more): the calls consume exactly the document, and the object gets the transaction without witnesses, and for every input the amount, the two steps of derivation
and the extended key. -/
theorem C72_segwit_pieces (junk : Bytes) (fuel : Nat) {e : ElectrumTx} (he : e.status = .done) {x : Transaction} (h : WireTx x) (h1 : 1 ≤ x.ins.length)
    (h5 : x.ins.length ≤ 5) (ho : x.outs.length < 253) {ks : List ElectrumKey}
    (hk : ∀ k ∈ ks, k.Ok ∧ k.Good) (hl : ks.length = x.ins.length) {rest : Bytes} {cs : List Bytes} (hcs : cs.flatten = electrumSegwit x ks ++ rest)
    (hcut : ∀ k, ¬ CutInLength x (electrumSegwit x ks).length (cs.take k).flatten.length) :
    ∃ e' : ElectrumTx, feedPiecesOpt (fromStream junk (fuel + 2)) ElectrumTx.status e cs = some (e', (electrumSegwit x ks).length) ∧ e'.status = .done ∧
      e'.isSegwit = true ∧ e'.tx.Holds x.bare ∧ List.Forall₂ (fun m k => m.Says k (some k.amount)) e'.metas ks := by
  have hdl := doc_length hk hl
  have h0 : cs ≠ [] := by
    rintro rfl
    have := congrArg List.length hcs
    rw [List.flatten_nil, List.length_append, List.length_nil] at this
    omega
  rw [feed_start junk (fuel + 2) he h0]
  have hearly : Amid junk { status := .incomplete } x (ks.flatMap electrumWitness ++ (leBytes 4 x.locktime ++ rest)) [] :=
    Or.inl ⟨early_fresh, by rw [List.length_nil]; omega⟩
  obtain ⟨e', a1, a2⟩ := (segwit_feed junk fuel h h1 h5 ho hk hl cs hearly (by rw [List.nil_append, hcs])
    (by rw [List.length_nil]; omega) (by rw [List.length_nil]; simpa using hcut)).2 (by rw [List.nil_append, hcs, List.length_append]; omega)
  exact ⟨e', a1, a2.status, a2.segwit, a2.tx, a2.metas⟩

open ElectrumTx in
/-- C72: and while only a part of it has come, the object says so. -/
theorem C72_segwit_part (junk : Bytes) (fuel : Nat) {e : ElectrumTx} (he : e.status = .done) {x : Transaction} (h : WireTx x) (h1 : 1 ≤ x.ins.length)
    (h5 : x.ins.length ≤ 5) (ho : x.outs.length < 253) {ks : List ElectrumKey}
    (hk : ∀ k ∈ ks, k.Ok ∧ k.Good) (hl : ks.length = x.ins.length) {cs : List Bytes} {d : Bytes} (h0 : cs ≠ [])
    (hcs : cs.flatten ++ d = electrumSegwit x ks) (hd : d ≠ []) (hcut : ∀ k, ¬ CutInLength x (electrumSegwit x ks).length (cs.take k).flatten.length) :
    ∃ e' : ElectrumTx, feedPiecesOpt (fromStream junk (fuel + 2)) ElectrumTx.status e cs = some (e', cs.flatten.length) ∧ e'.status = .incomplete := by
  have hdl := doc_length hk hl
  rw [feed_start junk (fuel + 2) he h0]
  have hearly : Amid junk { status := .incomplete } x (ks.flatMap electrumWitness ++ (leBytes 4 x.locktime ++ [])) [] :=
    Or.inl ⟨early_fresh, by rw [List.length_nil]; omega⟩
  have hlen := congrArg List.length hcs
  rw [List.length_append] at hlen
  have := List.length_pos_iff.mpr hd
  exact (segwit_feed junk fuel h h1 h5 ho hk hl cs hearly ⟨d, by rw [List.nil_append, hcs, List.append_nil]⟩
    (by rw [List.length_nil]; omega) (by rw [List.length_nil]; simpa using hcut)).1 (by rw [List.nil_append]; omega) h0

open ElectrumTx in
/-- C72: a document without segwit inputs is understood in whatever pieces it comes. -/
theorem C72_legacy_pieces (junk : Bytes) (fuel : Nat) {e : ElectrumTx} (he : e.status = .done) {x : Transaction} (h : WireTx x) (h0 : x.ins ≠ [])
    (hi : x.ins.length < 253) (ho : x.outs.length < 253) (hx : ∀ i ∈ x.ins, i.script = [] ∧ i.witness = []) {ks : List (Bytes × ElectrumKey)}
    (hk : ∀ k ∈ ks, k.1.length = 5 ∧ k.2.Ok ∧ k.2.Good) (hl : x.ins.length = ks.length) {rest : Bytes} {cs : List Bytes}
    (hcs : cs.flatten = electrumLegacy x ks ++ rest) :
    ∃ e' : ElectrumTx, feedPiecesOpt (fromStream junk fuel) ElectrumTx.status e cs = some (e', (electrumLegacy x ks).length) ∧ e'.status = .done ∧
      e'.isSegwit = false ∧ e'.tx.Holds x ∧ List.Forall₂ (fun m k => m.Says k.2 none) e'.metas ks := by
  have hpos : 0 < (electrumLegacy x ks).length := by
    rw [(legacyDoc_facts h h0 hx hk hl).2.2.2.2, List.length_append]
    show 0 < 6 + _
    omega
  have hc0 : cs ≠ [] := by
    rintro rfl
    have := congrArg List.length hcs
    rw [List.flatten_nil, List.length_append, List.length_nil] at this
    omega
  rw [feed_start junk fuel he hc0]
  obtain ⟨e', a1, a2⟩ := (legacy_feed junk fuel h h0 hi ho hx hk hl cs early_fresh (by rw [List.nil_append, hcs])
    hpos).2 (by rw [List.nil_append, hcs, List.length_append]; omega)
  exact ⟨e', a1, a2.status, a2.segwit, a2.tx, a2.metas⟩

open ElectrumTx in
/-- C72: and while only a part of it has come, the object says so. -/
theorem C72_legacy_part (junk : Bytes) (fuel : Nat) {e : ElectrumTx} (he : e.status = .done) {x : Transaction} (h : WireTx x) (h0 : x.ins ≠ [])
    (hi : x.ins.length < 253) (ho : x.outs.length < 253) (hx : ∀ i ∈ x.ins, i.script = [] ∧ i.witness = []) {ks : List (Bytes × ElectrumKey)}
    (hk : ∀ k ∈ ks, k.1.length = 5 ∧ k.2.Ok ∧ k.2.Good) (hl : x.ins.length = ks.length) {cs : List Bytes} {d : Bytes} (hc0 : cs ≠ [])
    (hcs : cs.flatten ++ d = electrumLegacy x ks) (hd : d ≠ []) :
    ∃ e' : ElectrumTx, feedPiecesOpt (fromStream junk fuel) ElectrumTx.status e cs = some (e', cs.flatten.length) ∧ e'.status = .incomplete := by
  have hlen := congrArg List.length hcs
  rw [List.length_append] at hlen
  have := List.length_pos_iff.mpr hd
  rw [feed_start junk fuel he hc0]
  exact (legacy_feed junk fuel (rest := []) h h0 hi ho hx hk hl cs early_fresh ⟨d, by rw [List.nil_append, hcs, List.append_nil]⟩
    (by rw [List.length_nil]; omega)).1 (by rw [List.nil_append]; omega) hc0

namespace ElectrumTx

/-- What comes behind the transaction does not change its outputs. -/
theorem readSegwit_outs {junk : Bytes} {fuel : Nat} {e : ElectrumTx} {br : Nat} {s : PStream} {r : ElectrumTx × Nat × PStream}
    (h : readSegwit junk fuel e br s = some r) : r.1.tx.txOuts = e.tx.txOuts ∧ r.1.isSegwit = e.isSegwit := by
  unfold readSegwit at h
  split_ifs at h
  · dsimp only at h
    cases hm : readMetas junk fuel (6 + e.tx.length + 2 - 4) e.metas (e.bytesParsed + br) s with
    | none =>
      rw [hm] at h
      cases h
    | some q =>
      obtain ⟨ms, pos, s'⟩ := q
      rw [hm] at h
      dsimp only [Option.bind_eq_bind, Option.bind_some] at h
      split_ifs at h <;> · cases h; exact ⟨rfl, rfl⟩
  · cases h
    exact ⟨rfl, rfl⟩

theorem fromStream_outs {junk : Bytes} {fuel : Nat} {e : ElectrumTx} {s : PStream} {r : ElectrumTx × Nat × PStream} (h1 : e.status = .incomplete)
    (h2 : e.isSegwit = true) (h : fromStream junk fuel e s = some r) : r.1.tx.txOuts = e.tx.txOuts ∧ r.1.isSegwit = true := by
  unfold fromStream at h
  rw [if_neg (by rw [h1]; decide), start_incomplete h1] at h
  dsimp only at h
  split_ifs at h
  · unfold readTx at h
    rw [if_neg (by rw [h2]; simp)] at h
    unfold afterTx at h
    split_ifs at h
    · split at h
      · split_ifs at h
        · have := readSegwit_outs h
          exact ⟨this.1, this.2⟩
        · cases h
          exact ⟨rfl, h2⟩
      · cases h
        exact ⟨rfl, h2⟩
    · have := readSegwit_outs h
      exact ⟨this.1, this.2.trans h2⟩
  · cases h
    exact ⟨rfl, h2⟩

theorem feed_outs {junk : Bytes} {fuel : Nat} : ∀ (cs : List Bytes) {e e' : ElectrumTx} {n : Nat}, e.status = .incomplete → e.isSegwit = true →
    feedPiecesOpt (fromStream junk fuel) ElectrumTx.status e cs = some (e', n) → e'.tx.txOuts = e.tx.txOuts
  | [], e, e', n, _, _, h => by
    cases h
    rfl
  | c :: cs, e, e', n, h1, h2, h => by
    unfold feedPiecesOpt at h
    cases hr : fromStream junk fuel e (.of c) with
    | none =>
      rw [hr] at h
      cases h
    | some r =>
      obtain ⟨a1, a2⟩ := fromStream_outs h1 h2 hr
      rw [hr] at h
      dsimp only at h
      split_ifs at h with h3
      · cases hz : feedPiecesOpt (fromStream junk fuel) ElectrumTx.status r.1 cs with
        | none =>
          rw [hz] at h
          cases h
        | some z =>
          rw [hz] at h
          cases h
          rw [feed_outs cs h3 a2 (n := z.2) (by rw [hz]), a1]
      · cases h
        exact a1

/-- What `cut_first` needs to know of the transaction parser. -/
def cutBody : Bytes := [1, 0, 0, 0, 0, 1, 1] ++ List.replicate 36 0 ++ [0, 0xff, 0xff, 0xff, 0xff] ++ [1] ++ List.replicate 8 0 ++ [0xfd]

theorem cutBody_parse : (({} : Tx).fromStream (.of cutBody)).1.status = .failed ∧
    ((({} : Tx).fromStream (.of cutBody)).1.txIns.head?.map fun i => i.witness.status) = some .failed ∧
    (({} : Tx).fromStream (.of cutBody)).1.txOuts.map (fun o => o.scriptPubkey.scriptLen) = [0] := by decide +kernel

end ElectrumTx

/-- A transaction with one input, and one output with a script of 253 bytes. -/
def exLong : Transaction := ⟨1, [⟨List.replicate 32 0, 0, [], 0xffffffff, []⟩], [⟨0, List.replicate 253 0⟩], 0⟩

open ElectrumTx in
/-- C72, code and claim disagree: with a longer script in the last output it matters where the document is cut: if the first piece ends behind the first byte of
the length of that script, then whatever pieces the rest comes in, the object never gets the transaction. -/
theorem C72_cut_fails : ∃ p : Bytes, ∀ (ks : List ElectrumKey), ∃ d, p ++ d = electrumSegwit exLong ks ∧ ∀ (junk : Bytes) (fuel : Nat) (cs : List Bytes) (e' : ElectrumTx) (n : Nat),
    feedPiecesOpt (fromStream junk fuel) ElectrumTx.status {} (p :: cs) = some (e', n) → ¬ e'.tx.Holds exLong.bare := by
  refine ⟨electrumMagic ++ cutBody, fun ks => ⟨([253, 0] ++ List.replicate 253 0) ++ (ks.flatMap electrumWitness ++ (leBytes 4 0 ++ [])), ?_, ?_⟩⟩
  rotate_left
  · intro junk fuel cs e' n h hh
    have houts : e'.tx.txOuts.map (fun o => o.scriptPubkey.scriptLen) = [0] := by
      obtain ⟨b1, b2, b3⟩ := cutBody_parse
      rw [feed_start junk fuel rfl (by simp)] at h
      unfold feedPiecesOpt at h
      obtain ⟨e1, -, -⟩ := early_call junk fuel early_fresh (c := electrumMagic ++ cutBody) (D := cutBody) ⟨[], by rw [List.append_nil, List.nil_append]⟩
      rw [e1] at h
      have hd : (electrumMagic ++ cutBody).drop (6 - ([] : Bytes).length) = cutBody := rfl
      rw [hd] at h
      unfold ElectrumTx.readTx at h
      rw [if_pos ⟨rfl, rfl, by decide⟩] at h
      dsimp only at h
      rw [b1, if_neg (by decide), if_neg (by decide)] at h
      unfold afterTx at h
      dsimp only at h
      rw [if_pos b1] at h
      generalize (({} : Tx).fromStream (.of cutBody)) = R at *
      obtain ⟨t, m, s⟩ := R
      dsimp only at *
      cases hi : t.txIns with
      | nil => rw [hi] at b2; cases b2
      | cons i is =>
        rw [hi] at b2 h
        dsimp only at h
        rw [if_pos (by simpa using b2)] at h
        generalize hr : readSegwit _ _ _ _ _ = r at h
        cases r with
        | none => cases h
        | some r =>
          obtain ⟨a1, a2⟩ := readSegwit_outs hr
          dsimp only at h
          split_ifs at h with h3
          · cases hz : feedPiecesOpt (fromStream junk fuel) ElectrumTx.status r.1 cs with
            | none =>
              rw [hz] at h
              cases h
            | some z =>
              rw [hz] at h
              cases h
              rw [feed_outs cs h3 a2 (n := z.2) (by rw [hz]), a1]
              exact b3
          · cases h
            rw [a1]
            exact b3
    have := hh.outs
    have hl : exLong.bare.outs = [⟨0, List.replicate 253 0⟩] := rfl
    rw [hl] at this
    cases hout : e'.tx.txOuts with
    | nil => rw [hout] at houts; cases houts
    | cons o os =>
      rw [hout] at houts this
      cases this with
      | cons q1 q2 =>
        have hs := q1.script.1
        simp only [List.map_cons, List.cons.injEq] at houts
        rw [houts.1] at hs
        rw [List.length_replicate] at hs; omega
  · have hpre : preBytes exLong = cutBody ++ ([253, 0] ++ List.replicate 253 0) := by decide +kernel
    have := doc_split exLong ks []
    rw [List.append_nil, hpre] at this
    rw [this]
    simp only [List.append_assoc]
    rfl

/-! ### C78: an Electrum object copied in the middle of a document -/

namespace ElectrumTx

/-- At most four bytes, given to an object that takes them for the start of a transaction. -/
theorem four_bytes (junk : Bytes) (fuel : Nat) {q : ElectrumTx} (h1 : q.status = .incomplete) (h2 : q.isSegwit = false) (h3 : 6 ≤ q.bytesParsed)
    (h4 : q.tx.status = .done) {b : Bytes} (hb : b ≠ []) (hl : b.length ≤ 4) :
    ∃ q', fromStream junk fuel q (.of b) = some (q', b.length, .of []) ∧ q'.status = .incomplete ∧ q'.tx.status = .incomplete := by
  have hm : Spec.readTx b = .more := by
    unfold Spec.readTx
    split
    · rfl
    · rw [List.drop_eq_nil_of_le hl]
  have hf : ¬ Fragile b := by
    intro hf
    have := (List.getElem?_eq_some_iff.mp (fragile_byte hf)).1
    omega
  have hfeed := Tx.feed q.tx [] b (Or.inl ⟨h4, rfl⟩)
  unfold Tx.Out at hfeed
  rw [List.nil_append, hm] at hfeed
  have hav : (PStream.of b).avail = true := by
    cases b with
    | nil => exact absurd rfl hb
    | cons a b => rfl
  unfold fromStream
  rw [if_neg (by rw [h1]; decide), start_incomplete h1]
  dsimp only
  rw [List.drop_eq_nil_of_le (by rw [show magic.length = 6 from rfl]; omega), show readMagic [] (.of b) = (true, 0, .of b) from by rw [readMagic]]
  dsimp only
  rw [if_pos rfl]
  unfold readTx
  rw [if_pos ⟨h2, hav, by rw [h4]; decide⟩]
  generalize q.tx.fromStream (.of b) = R at hfeed
  obtain ⟨t, n, s⟩ := R
  dsimp only at hfeed
  rcases hfeed with ⟨g1, g2, g3, rfl⟩ | ⟨g, _⟩
  · dsimp only
    rw [g1, if_neg (by decide), if_neg (by decide)]
    unfold afterTx readSegwit
    dsimp only
    rw [g1, if_neg (by decide), if_neg (by rw [h2]; simp), h1]
    have : 0 + n = b.length := by simpa using g3
    rw [this]
    exact ⟨_, rfl, rfl, g1⟩
  · exact absurd g hf

end ElectrumTx

open ElectrumTx in
/-- C78: an Electrum object that has been given all but the last bytes (at most four) of a segwit document ends up DONE with the document when it gets these;
a copy of it, or another object to which it has been assigned, takes them for the start of another transaction and says INCOMPLETE. -/
theorem C78_electrum (junk : Bytes) (fuel : Nat) {x : Transaction} (h : WireTx x) (h1 : 1 ≤ x.ins.length) (h5 : x.ins.length ≤ 5) (ho : x.outs.length < 253)
    {ks : List ElectrumKey} (hk : ∀ k ∈ ks, k.Ok ∧ k.Good) (hl : ks.length = x.ins.length)
    {a b : Bytes} (hab : a ++ b = electrumSegwit x ks) (hb : b ≠ []) (hb4 : b.length ≤ 4) (self : ElectrumTx) (hself : self.isSegwit = false) :
    ∃ e q r, fromStream junk (fuel + 2) {} (.of a) = some (e, a.length, .of []) ∧ e.copy = .ok q ∧ self.assign e = .ok r ∧
      (∃ e', fromStream junk (fuel + 2) e (.of b) = some (e', b.length, .of []) ∧ e'.status = .done ∧ e'.tx.Holds x.bare) ∧
      (∃ q', fromStream junk (fuel + 2) q (.of b) = some (q', b.length, .of []) ∧ q'.status = .incomplete ∧ q'.tx.status = .incomplete) ∧
      (∃ r', fromStream junk (fuel + 2) r (.of b) = some (r', b.length, .of []) ∧ r'.status = .incomplete ∧ r'.tx.status = .incomplete) := by
  have hdl := doc_length hk hl
  have hlen := congrArg List.length hab
  rw [List.length_append] at hlen
  have hpos := List.length_pos_iff.mpr hb
  have hearly : Amid junk { status := .incomplete } x (ks.flatMap electrumWitness ++ (leBytes 4 x.locktime ++ [])) [] :=
    Or.inl ⟨early_fresh, by rw [List.length_nil]; omega⟩
  obtain ⟨e, a1, a2, a3⟩ := (segwit_step junk fuel (c := a) h h1 h5 ho hk hl hearly ⟨b, by rw [List.nil_append, hab, List.append_nil]⟩
    (by rw [List.length_nil]; omega) (by rintro ⟨l, -, k1, k2⟩; rw [List.nil_append] at k1 k2; omega)).1 (by rw [List.nil_append]; omega)
  rw [List.nil_append] at a3
  obtain ⟨e', b1, b2⟩ := (segwit_step junk fuel (c := b) h h1 h5 ho hk hl a3 ⟨[], by rw [hab]⟩ (by omega)
    (by rintro ⟨l, -, k1, k2⟩; rw [hab] at k1; omega)).2 (by rw [hab])
  rw [show (electrumSegwit x ks).length - a.length = b.length by omega, List.drop_length] at b1
  rcases a3 with ⟨-, a3⟩ | a3
  · omega
  · have hlong := a3.long
    have hmet : e.tx.txIns.length ≤ e.metas.length := by
      rw [a3.metas, a3.holds.ins.length_eq]
      show (x.ins.map _).length ≤ _
      rw [List.length_map]
    have hcopy : e.copy = .ok { status := e.status, bytesParsed := e.bytesParsed, isSegwit := false, tx := e.tx.copy, metas := e.metas.take e.tx.txIns.length } := by
      unfold ElectrumTx.copy takeMetas
      rw [if_pos hmet, C.bind_ok]
      rfl
    have hass : self.assign e =
        .ok { status := e.status, bytesParsed := e.bytesParsed, isSegwit := self.isSegwit, tx := e.tx.copy, metas := e.metas.take e.tx.txIns.length } := by
      unfold ElectrumTx.assign takeMetas
      rw [if_pos hmet, C.bind_ok]
      rfl
    have hst : e.tx.copy.status = .done := a3.at_.tx
    refine ⟨e, _, _, ?_, hcopy, hass, ⟨e', b1, b2.status, b2.tx⟩, ?_, ?_⟩
    · rw [fromStream_start junk (fuel + 2) rfl]
      exact a1
    · exact four_bytes (q := ⟨e.status, e.bytesParsed, false, e.tx.copy, e.metas.take e.tx.txIns.length⟩) junk (fuel + 2) a3.status rfl
        (by show 6 ≤ e.bytesParsed; rw [a3.parsed]; omega) hst hb hb4
    · exact four_bytes (q := ⟨e.status, e.bytesParsed, self.isSegwit, e.tx.copy, e.metas.take e.tx.txIns.length⟩) junk (fuel + 2) a3.status hself (by show 6 ≤ e.bytesParsed; rw [a3.parsed]; omega) hst hb hb4

/-! ### Examples -/

theorem flatten_bytes : ∀ bs : Bytes, (bs.map fun b => [b]).flatten = bs
  | [] => rfl
  | b :: bs => by rw [List.map_cons, List.flatten_cons, flatten_bytes bs]; rfl

theorem exElectrumKeys {a : Nat} (ha : a < 2 ^ 64) : ∀ k ∈ [exElectrumKey a], k.Ok ∧ k.Good := by
  intro k hk
  rw [List.mem_singleton] at hk
  subst hk
  exact ⟨(exElectrumKey_means ha).ok, (exElectrumKey_means ha).good⟩

/-- A length of one byte cannot be cut. -/
theorem not_cut_short {x : Transaction} (hlast : ∀ o ∈ x.outs.getLast?, o.script.length < 253) (size c : Nat) : ¬ CutInLength x size c := by
  rintro ⟨l, h1, h2, h3⟩
  rw [compactSize_small (hlast l (by rw [h1]; simp)), List.length_singleton] at h3
  omega

open ElectrumTx in
/-- C72_segwit_pieces: a document byte by byte. -/
example (junk rest : Bytes) : ∃ e' : ElectrumTx, feedPiecesOpt (fromStream junk 2) ElectrumTx.status {}
      ((electrumSegwit exPsbtTx [exElectrumKey 5000000000] ++ rest).map fun b => [b]) = some (e', (electrumSegwit exPsbtTx [exElectrumKey 5000000000]).length) ∧
    e'.status = .done ∧ e'.tx.Holds exPsbtTx.bare := by
  obtain ⟨e', h1, h2, -, h3, -⟩ := C72_segwit_pieces junk 0 (e := {}) rfl exPsbtTx_wire (by decide) (by decide) (by decide)
    (exElectrumKeys (a := 5000000000) (by decide)) rfl (rest := rest) (flatten_bytes _) (fun _ => not_cut_short (by decide) _ _)
  exact ⟨e', h1, h2, h3⟩

theorem exLong_wire : WireTx exLong :=
  ⟨by decide, by decide, by simp only [exLong, List.forall_mem_cons]; exact ⟨⟨by decide, by decide, by decide, by decide⟩, by simp⟩,
    by simp only [exLong, List.forall_mem_cons]; exact ⟨⟨by decide, by rw [List.length_replicate]; decide⟩, by simp⟩, by simp [exLong]⟩

open ElectrumTx in
/-- C72_segwit_pieces: a document with a script of 253 bytes, cut behind its first ten bytes. -/
example (junk rest : Bytes) : ∃ e' : ElectrumTx, feedPiecesOpt (fromStream junk 2) ElectrumTx.status {}
      [(electrumSegwit exLong [exElectrumKey 5000000000] ++ rest).take 10, (electrumSegwit exLong [exElectrumKey 5000000000] ++ rest).drop 10] =
        some (e', (electrumSegwit exLong [exElectrumKey 5000000000]).length) ∧
    e'.status = .done ∧ e'.tx.Holds exLong.bare := by
  have hk := exElectrumKeys (a := 5000000000) (by decide)
  have hlen := doc_length (x := exLong) hk rfl
  have hpre : (preBytes exLong).length = 313 := by decide +kernel
  have h1 : exLong.ins.length = 1 := rfl
  have hc : (compactSize 253).length = 3 := by decide +kernel
  obtain ⟨e', h1, h2, -, h3, -⟩ := C72_segwit_pieces junk 0 (e := {}) rfl exLong_wire (by decide) (by decide) (by decide) hk rfl (rest := rest)
    (cs := [(electrumSegwit exLong [exElectrumKey 5000000000] ++ rest).take 10, (electrumSegwit exLong [exElectrumKey 5000000000] ++ rest).drop 10])
    (by simp) (by
      rintro k ⟨l, g1, g2, g3⟩
      have hl : l = ⟨0, List.replicate 253 0⟩ := by
        have : exLong.outs.getLast? = some ⟨0, List.replicate 253 0⟩ := rfl
        rw [this] at g1
        exact (Option.some.inj g1).symm
      subst hl
      rw [show (List.replicate 253 (0 : UInt8)).length = 253 from List.length_replicate] at g2 g3
      match k with
      | 0 => simp at g2 g3; omega
      | 1 => simp at g2 g3; omega
      | _ + 2 => simp at g2 g3; omega)
  exact ⟨e', h1, h2, h3⟩

open ElectrumTx in
/-- C72_segwit_part: its first 100 bytes. -/
example (junk : Bytes) : ∃ e' : ElectrumTx, feedPiecesOpt (fromStream junk 2) ElectrumTx.status {} [(electrumSegwit exPsbtTx [exElectrumKey 5000000000]).take 100] = some (e', 100) ∧
    e'.status = .incomplete := by
  have hk := exElectrumKeys (a := 5000000000) (by decide)
  have hl := doc_length (x := exPsbtTx) hk rfl
  have h1 : exPsbtTx.ins.length = 1 := rfl
  obtain ⟨e', a1, a2⟩ := C72_segwit_part junk 0 (e := {}) rfl exPsbtTx_wire (by decide) (by decide) (by decide) hk rfl
    (cs := [(electrumSegwit exPsbtTx [exElectrumKey 5000000000]).take 100]) (d := (electrumSegwit exPsbtTx [exElectrumKey 5000000000]).drop 100) (by simp)
    (by simp) (by
      intro hh
      have := congrArg List.length hh
      rw [List.length_drop, List.length_nil] at this
      omega) (fun _ => not_cut_short (by decide) _ _)
  refine ⟨e', ?_, a2⟩
  rw [a1]
  congr 2

open ElectrumTx in
/-- C72_legacy_pieces: a document byte by byte. -/
example (junk rest : Bytes) (fuel : Nat) : ∃ e' : ElectrumTx, feedPiecesOpt (fromStream junk fuel) ElectrumTx.status {}
      ((electrumLegacy exPsbtTx [(zeros 5, exElectrumKey 0)] ++ rest).map fun b => [b]) = some (e', (electrumLegacy exPsbtTx [(zeros 5, exElectrumKey 0)]).length) ∧
    e'.status = .done ∧ e'.tx.Holds exPsbtTx := by
  have hm := exElectrumKey_means (a := 0) (by decide)
  obtain ⟨e', h1, h2, -, h3, -⟩ := C72_legacy_pieces junk fuel (e := {}) rfl exPsbtTx_wire (by decide) (by decide) (by decide) (by decide)
    (ks := [(zeros 5, exElectrumKey 0)]) (by
      intro k hk
      rw [List.mem_singleton] at hk
      subst hk
      exact ⟨rfl, hm.ok, hm.good⟩) rfl (rest := rest) (flatten_bytes _)
  exact ⟨e', h1, h2, h3⟩

open ElectrumTx in
/-- C72_legacy_part: nothing but the magic bytes. -/
example (junk : Bytes) (fuel : Nat) : ∃ e' : ElectrumTx, feedPiecesOpt (fromStream junk fuel) ElectrumTx.status {} [electrumMagic] = some (e', 6) ∧ e'.status = .incomplete := by
  have hm := exElectrumKey_means (a := 0) (by decide)
  have hk : ∀ k ∈ [(zeros 5, exElectrumKey 0)], k.1.length = 5 ∧ k.2.Ok ∧ k.2.Good := by
    intro k hk
    rw [List.mem_singleton] at hk
    subst hk
    exact ⟨rfl, hm.ok, hm.good⟩
  have hf := legacyDoc_facts exPsbtTx_wire (by decide) (by decide) hk rfl
  exact C72_legacy_part junk fuel (e := {}) rfl exPsbtTx_wire (by decide) (by decide) (by decide) (by decide) hk rfl (cs := [electrumMagic])
    (d := txBytes (legacyDoc exPsbtTx [(zeros 5, exElectrumKey 0)])) (by simp) (by rw [hf.2.2.2.2]; rfl) (by
      rw [txBytes, if_neg hf.2.1, legacyBytes]
      simp [leBytes])

open ElectrumTx in
/-- C78_electrum: the last three bytes of a document are missing. -/
example (junk : Bytes) : ∃ e q a b, fromStream junk 2 {} (.of a) = some (e, a.length, .of []) ∧ e.copy = .ok q ∧
    (∃ e', fromStream junk 2 e (.of b) = some (e', 3, .of []) ∧ e'.status = .done ∧ e'.tx.Holds exPsbtTx.bare) ∧
    (∃ q', fromStream junk 2 q (.of b) = some (q', 3, .of []) ∧ q'.status = .incomplete) := by
  have hk := exElectrumKeys (a := 5000000000) (by decide)
  have hl := doc_length (x := exPsbtTx) hk rfl
  have hb : ((electrumSegwit exPsbtTx [exElectrumKey 5000000000]).drop ((electrumSegwit exPsbtTx [exElectrumKey 5000000000]).length - 3)).length = 3 := by
    rw [List.length_drop]
    omega
  obtain ⟨e, q, r, a1, a2, -, ⟨e', a3, a4, a5⟩, ⟨q', a6, a7, -⟩, -⟩ := C78_electrum junk 0 exPsbtTx_wire (by decide) (by decide) (by decide) hk rfl
    (List.take_append_drop ((electrumSegwit exPsbtTx [exElectrumKey 5000000000]).length - 3) _) (by intro hh; rw [hh] at hb; cases hb) (by omega) {} rfl
  rw [hb] at a3 a6
  exact ⟨e, q, _, _, a1, a2, ⟨e', a3, a4, a5⟩, ⟨q', a6, a7⟩⟩

end UB
