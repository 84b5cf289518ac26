import Verif.Lemmas.Electrum
import Verif.Props.TxSign

/-
C72: unsigned transactions of the Electrum wallet.
-/

namespace UB
open Spec BN

namespace ElectrumTx

theorem forall₂_join {α β : Type} {R : α → β → Prop} {xs : List α} {ys : List β} (h1 : List.Forall₂ R (xs.take 1) (ys.take 1))
    (h2 : List.Forall₂ R (xs.drop 1) (ys.drop 1)) : List.Forall₂ R xs ys := by
  have : List.Forall₂ R (xs.take 1 ++ xs.drop 1) (ys.take 1 ++ ys.drop 1) := List.rel_append h1 h2
  rwa [List.take_append_drop, List.take_append_drop] at this

end ElectrumTx

open ElectrumTx in
/-- C72: a segwit document for one to five inputs is understood: the object gets the transaction without witnesses, and for every input the amount, the two
steps of derivation and the extended key. -/
theorem C72_parse_segwit (junk : Bytes) (fuel : Nat) {e : ElectrumTx} (he : e.status = .done) {x : Transaction} (h : WireTx x) (h1 : 1 ≤ x.ins.length)
    (h5 : x.ins.length ≤ 5) (ho : x.outs.length < 253) {ks : List ElectrumKey} (hk : ∀ k ∈ ks, k.Ok ∧ k.Good) (hl : ks.length = x.ins.length) (rest : Bytes) :
    ∃ e' : ElectrumTx, e.fromStream junk (fuel + 2) (.of (electrumSegwit x ks ++ rest)) = some (e', (electrumSegwit x ks).length, .of rest) ∧ e'.status = .done ∧
      e'.isSegwit = true ∧ e'.tx.Holds x.bare ∧ List.Forall₂ (fun m k => m.Says k (some k.amount)) e'.metas ks := by
  cases ks with
  | nil => simp at hl; omega
  | cons k ks =>
    have hW : Refused x.ins.length x.ins.length ((k :: ks).flatMap electrumWitness ++ (leBytes 4 x.locktime ++ rest)) := by
      rw [List.flatMap_cons, List.append_assoc]
      exact refused_five k _ (by omega) h5
    obtain ⟨e', e1, e2, e3, e4, e5, e6⟩ := fromStream_doc junk fuel he h (by omega) ho hk hl (by omega) rest hW (by simp)
    refine ⟨e', e1, e2, e3, e4, forall₂_join ?_ e5⟩
    rw [show x.ins.length - 5 = 0 by omega] at e6
    simpa using e6

open ElectrumTx in
/-- C72, code and claim disagree: in a document for six inputs, if the first amount ends in the bytes 1, 0 then it is read as one less, without an error.  (The
transaction parser looks for six witnesses; the sixth one is found in the amount.) -/
theorem C72_six_inputs (junk : Bytes) (fuel : Nat) {e : ElectrumTx} (he : e.status = .done) {x : Transaction} (h : WireTx x) (h6 : x.ins.length = 6)
    (ho : x.outs.length < 253) {k : ElectrumKey} {ks : List ElectrumKey} (hk : ∀ a ∈ k :: ks, a.Ok ∧ a.Good) (hl : (k :: ks).length = x.ins.length)
    (ha : k.amount % 65536 = 1) (rest : Bytes) :
    ∃ e' : ElectrumTx, e.fromStream junk (fuel + 2) (.of (electrumSegwit x (k :: ks) ++ rest)) = some (e', (electrumSegwit x (k :: ks)).length, .of rest) ∧
      e'.status = .done ∧ e'.tx.Holds x.bare ∧ ∃ m ms, e'.metas = m :: ms ∧ m.amount = some (UInt64.ofNat (k.amount - 1)) ∧
      List.Forall₂ (fun m k => m.Says k (some k.amount)) ms ks := by
  have hW : Refused x.ins.length 7 ((k :: ks).flatMap electrumWitness ++ (leBytes 4 x.locktime ++ rest)) := by
    rw [List.flatMap_cons, List.append_assoc, h6]
    exact refused_six k ha _
  obtain ⟨e', e1, e2, e3, e4, e5, e6⟩ := fromStream_doc junk fuel he h (by omega) ho hk hl (by omega) rest hW (by simp)
  refine ⟨e', e1, e2, e4, ?_⟩
  cases hm : e'.metas with
  | nil => rw [hm] at e6; simp at e6
  | cons m ms =>
    rw [hm] at e5 e6
    simp only [List.take_succ_cons, List.take_zero, List.forall₂_cons, List.drop_succ_cons, List.drop_zero] at e5 e6
    refine ⟨m, ms, rfl, ?_, e5⟩
    rw [e6.1.amount, Option.map_some]
    congr 2
    omega

/-! ### A document that is never finished -/

namespace ElectrumTx

theorem readHd_stuck (junk : Bytes) (limit : Nat) {hd : HDPub} (hs : hd.key.status = .failed) {pos : Nat} (hp : pos < limit) {s : PStream} (ha : s.avail = true) :
    ∀ fuel, readHd junk limit fuel hd pos s = none
  | 0 => rfl
  | fuel + 1 => by
    have hf : hd.fromStream junk s = (hd, 0, s) := by
      unfold HDPub.fromStream
      rw [if_pos (Or.inl hs)]
    rw [readHd, if_pos ⟨ha, hp, by rw [hs]; decide⟩, hf]
    exact readHd_stuck junk limit hs hp ha fuel

/-- Unknown version bytes. -/
theorem hd_unknown (junk : Bytes) {v : Bytes} (hv : v.length = 4) (hf : findPrefix pubPrefixes v networks = none) (rest : Bytes) :
    ∃ r : HDPub, ({} : HDPub).fromStream junk (.of (v ++ rest)) = (r, 4, .of rest) ∧ r.key.status = .failed := by
  match v, hv with
  | [a, b, c, d], _ =>
    have hp : ({} : HDHead).readPrefix pubPrefixes 0 (.of ([a, b, c, d] ++ rest)) = .ok ({ pre := [a, b, c, d] }, 4, .of rest, false) := by
      unfold HDHead.readPrefix
      have hr : (PStream.of ([a, b, c, d] ++ rest)).readN (4 - 0) = ([a, b, c, d], .of rest) := by
        rw [PStream.readN_of]
        rfl
      rw [hr]
      dsimp only
      have hfl : fill (({} : HDHead).pre) 0 0 [a, b, c, d] = .ok [a, b, c, d] := rfl
      rw [hfl, C.bind_ok, if_pos (show 0 + [a, b, c, d].length = 4 from rfl), hf]
      rfl
    refine ⟨{ head := { pre := [a, b, c, d] }, key := { status := .failed } }, ?_, rfl⟩
    unfold HDPub.fromStream
    rw [if_neg (by decide)]
    dsimp only
    unfold HDPub.body
    rw [if_pos rfl]
    dsimp only
    rw [hp, C.bind_ok]
    rfl

end ElectrumTx

open ElectrumTx in
/-- C72, code and claim disagree: `from_stream` does not come back from a document in which the extended key of the first input has unknown version
bytes, whatever follows (at least one byte): after any number of rounds the loop is still running. -/
theorem C72_hang (junk : Bytes) {e : ElectrumTx} (he : e.status = .done) {x : Transaction} (h : WireTx x) (h1 : 1 ≤ x.ins.length)
    (h5 : x.ins.length ≤ 5) (ho : x.outs.length < 253) {k : ElectrumKey} (hk : k.Ok) {ks : List ElectrumKey} 
    (hf : findPrefix pubPrefixes (k.xpub.take 4) networks = none) (rest : Bytes) (fuel : Nat) :
    e.fromStream junk fuel (.of (electrumSegwit x (k :: ks) ++ rest)) = none := by
  have hW : Refused x.ins.length x.ins.length (electrumWitness k ++ (ks.flatMap electrumWitness ++ (leBytes 4 x.locktime ++ rest))) :=
    refused_five k _ (by omega) h5
  obtain ⟨e1, off, f1, f2, f3, f4, f5, f6, f7, f8, f9, f10⟩ := fromStream_segwit junk fuel he h (by omega) ho hW
  have hdoc : electrumSegwit x (k :: ks) ++ rest = electrumMagic ++ (leBytes 4 x.version ++ ([0x00, 0x01] ++ (compactSize x.ins.length ++ (x.ins.flatMap inBytes ++
        (compactSize x.outs.length ++ (x.outs.flatMap outBytes ++ (electrumWitness k ++ (ks.flatMap electrumWitness ++ (leBytes 4 x.locktime ++ rest))))))))) := by
    unfold electrumSegwit
    simp only [List.append_assoc, List.flatMap_cons]
  obtain ⟨n, hn⟩ : ∃ n, x.ins.length = n + 1 := ⟨x.ins.length - 1, by omega⟩
  obtain ⟨r, r1, r2⟩ := hd_unknown junk (v := k.xpub.take 4) (by have := hk.xpub; simp; omega) hf
    (k.xpub.drop 4 ++ ((leBytes 2 k.change ++ leBytes 2 k.index) ++ (ks.flatMap electrumWitness ++ (leBytes 4 x.locktime ++ rest))))
  rw [← List.append_assoc, List.take_append_drop] at r1
  have hav : ∀ (a b : Bytes), a ≠ [] → (PStream.of (a ++ b)).avail = true := by
    intro a b hab
    cases a with
    | nil => exact absurd rfl hab
    | cons c a => rfl
  have hx0 : k.xpub ≠ [] := fun hh => by have := hk.xpub; rw [hh] at this; cases this
  have hx4 : k.xpub.drop 4 ≠ [] := fun hh => by
    have := hk.xpub
    have h2 := congrArg List.length hh
    rw [List.length_drop, this] at h2
    cases h2
  have hloop : ∀ fuel, readHd junk (off + 98) fuel {} (off + 20) (.of (k.xpub ++ ((leBytes 2 k.change ++ leBytes 2 k.index) ++
      (ks.flatMap electrumWitness ++ (leBytes 4 x.locktime ++ rest))))) = none := by
    intro fuel
    cases fuel with
    | zero => rfl
    | succ fuel =>
      rw [readHd, if_pos ⟨hav _ _ hx0, by omega, by decide⟩, r1]
      exact readHd_stuck junk _ r2 (by omega) (hav _ _ hx4) fuel
  rw [hdoc, f1]
  unfold readSegwit
  rw [if_pos ⟨f4, f5⟩]
  dsimp only
  rw [f9, f8, f3, Nat.zero_add, hn, List.replicate_succ, readMetas, ← hn]
  have take_all : ∀ (a b : Bytes) (n : Nat), a.length = n → (PStream.of (a ++ b)).readN n = (a, .of b) := by
    intro a b n h
    rw [PStream.readN_of, List.take_left' h, List.drop_left' h]
  have l1 : ([0xfe, 0xff, 0xff, 0xff, 0xff].drop x.ins.length : Bytes).length = 5 - x.ins.length := by simp
  have l2 : ((leBytes 8 k.amount).drop (x.ins.length - 5)).length = 8 - (x.ins.length - 5) := by simp
  have hmeta : readMeta junk fuel off { derivation := some (0, 0), amount := some 0 } (off + x.ins.length)
      (.of ((electrumWitness k ++ (ks.flatMap electrumWitness ++ (leBytes 4 x.locktime ++ rest))).drop x.ins.length)) = none := by
    have hkl : (electrumWitness k).length = 102 := by simp [electrumWitness, hk.encoding, hk.xpub]
    rw [List.drop_append_of_le_length (by omega), witness_drop (by omega)]
    unfold readMeta
    rw [take_all _ _ (off + 5 - (off + x.ins.length)) (by rw [l1]; omega)]
    dsimp only
    rw [l1, take_all _ _ (off + 13 - (off + x.ins.length + (5 - x.ins.length))) (by rw [l2]; omega)]
    dsimp only
    rw [l2, take_all _ _ (off + 20 - (off + x.ins.length + (5 - x.ins.length) + (8 - (x.ins.length - 5)))) (by rw [hk.encoding]; omega)]
    dsimp only
    rw [hk.encoding, show off + x.ins.length + (5 - x.ins.length) + (8 - (x.ins.length - 5)) + 7 = off + 20 by omega, hloop]
    rfl
  rw [hmeta]
  rfl


/-! ### Documents without segwit inputs -/

namespace ElectrumTx

theorem getD_tail (a : Bytes) (p q r s : UInt8) (i : Nat) (ha : a.length = i) :
    (a ++ [p, q, r, s]).getD i 0 = p ∧ (a ++ [p, q, r, s]).getD (i + 1) 0 = q ∧ (a ++ [p, q, r, s]).getD (i + 2) 0 = r ∧ (a ++ [p, q, r, s]).getD (i + 3) 0 = s := by
  subst ha
  simp [List.getD_eq_getElem?_getD]

theorem legacyMeta_eq (junk : Bytes) {i : In} {t : TxIn} {mk : Bytes} {k : ElectrumKey} (hm : mk.length = 5) (hk : k.Ok) (hg : k.Good)
    (ht : t.Holds { i with script := electrumScript mk k }) :
    ∃ t' m, legacyMeta junk t = .ok (some (t', m)) ∧ t'.Holds { i with script := [] } ∧ m.Says k none := by
  obtain ⟨hd, P, h1, h2, h3⟩ := hg
  have hsl : (electrumScript mk k).length = 87 := by
    simp [electrumScript, hm, hk.xpub]
  have hsc : t.scriptSig.Holds (electrumScript mk k) := ht.body.script
  obtain ⟨r, r1, r2, r3⟩ := hd_read junk h1 h2 (leBytes 2 k.change ++ leBytes 2 k.index)
  have hser : serialize t.scriptSig.toStream 88 0 .raw = .ok (88, 87 :: electrumScript mk k) := by
    have hv : varBytes (electrumScript mk k) = 87 :: electrumScript mk k := by
      rw [varBytes, hsl]
      rfl
    unfold serialize
    dsimp only
    rw [Script.toStream_eq _ _ hsc (by rw [hsl]; decide), hv, C.bind_ok]
    have hw : window (some 88) 0 (87 :: electrumScript mk k) = 87 :: electrumScript mk k := by
      unfold window
      dsimp only
      rw [List.drop_zero, List.take_of_length_le (by rw [List.length_cons, hsl])]
    rw [hw, List.length_cons, hsl]
    simp [zeros]
  have hdrop : (87 :: electrumScript mk k).drop 6 = hd.whole P ++ (leBytes 2 k.change ++ leBytes 2 k.index) := by
    rw [List.drop_succ_cons, electrumScript, List.drop_left' hm, h3]
  have hd4 : ∀ n, n < 2 ^ 16 → UInt16.ofNat ((UInt8.ofNat (n % 256)).toNat + (UInt8.ofNat (n / 256 % 256)).toNat * 256) = UInt16.ofNat n := by
    intro n hn
    have e1 : (UInt8.ofNat (n % 256)).toNat = n % 256 := by simp
    have e2 : (UInt8.ofNat (n / 256 % 256)).toNat = n / 256 := by simp; omega
    rw [e1, e2]
    congr 1
    omega
  have htl : 87 :: electrumScript mk k = (87 :: (mk ++ k.xpub)) ++ [UInt8.ofNat (k.change % 256), UInt8.ofNat (k.change / 256 % 256), UInt8.ofNat (k.index % 256),
      UInt8.ofNat (k.index / 256 % 256)] := by
    rw [electrumScript, leBytes_two, leBytes_two]
    simp
  obtain ⟨g1, g2, g3, g4⟩ := getD_tail (87 :: (mk ++ k.xpub)) (UInt8.ofNat (k.change % 256)) (UInt8.ofNat (k.change / 256 % 256)) (UInt8.ofNat (k.index % 256))
      (UInt8.ofNat (k.index / 256 % 256)) 84 (by simp [hm, hk.xpub])
  rw [← htl] at g1 g2 g3 g4
  have hlen : t.scriptSig.length = 88 := by
    rw [Script.length_eq _ _ hsc (by rw [hsl]; decide), varBytes, List.length_append, hsl]
    rfl
  unfold legacyMeta
  rw [if_neg (by rw [hlen]; simp), hser, C.bind_ok]
  dsimp only
  rw [hdrop]
  have r1' : ({} : HDPub).fromStream junk { bytes := hd.whole P ++ (leBytes 2 k.change ++ leBytes 2 k.index) } = (r, 78, .of (leBytes 2 k.change ++ leBytes 2 k.index)) := r1
  rw [r1']
  dsimp only
  rw [r2.status, if_neg (by decide), if_neg (by decide), g1, g2, g3, g4, hd4 _ hk.change, hd4 _ hk.index]
  refine ⟨_, _, rfl, ⟨⟨ht.body.hash, ht.body.hash_len, ht.body.index, Script.assign_holds (by rw [hsc.1, hsc.2]) ⟨rfl, rfl⟩, ht.body.sequence⟩, ht.witness⟩, rfl, rfl, ?_⟩
  intro hd' P' h1' h2' h3'
  obtain ⟨r', q1, q2, q3⟩ := hd_read junk h1' h2' (leBytes 2 k.change ++ leBytes 2 k.index)
  rw [← h3', h3, r1] at q1
  cases q1
  exact ⟨q2, q3⟩

theorem legacyMetas_eq (junk : Bytes) : ∀ (is : List In) (ks : List (Bytes × ElectrumKey)) (ts : List TxIn), is.length = ks.length →
    (∀ k ∈ ks, k.1.length = 5 ∧ k.2.Ok ∧ k.2.Good) →
    List.Forall₂ TxIn.Holds ts (is.zipWith (fun i k => { i with script := electrumScript k.1 k.2 }) ks) →
    ∃ ts' ms, legacyMetas junk ts = .ok (ts', ms, true) ∧ List.Forall₂ TxIn.Holds ts' (is.map fun i => { i with script := [] }) ∧
      List.Forall₂ (fun m k => m.Says k.2 none) ms ks
  | [], [], ts, _, _, h => by
    cases h
    exact ⟨[], [], rfl, .nil, .nil⟩
  | [], _ :: _, _, h, _, _ => by simp at h
  | _ :: _, [], _, h, _, _ => by simp at h
  | i :: is, k :: ks, ts, hl, hk, h => by
    rw [List.zipWith_cons_cons] at h
    cases h with
    | cons h1 h2 =>
      rename_i t ts
      obtain ⟨a1, a2, a3⟩ := hk k (by simp)
      obtain ⟨t', m, e1, e2, e3⟩ := legacyMeta_eq junk a1 a2 a3 h1
      obtain ⟨ts', ms, f1, f2, f3⟩ := legacyMetas_eq junk is ks ts (by simpa using hl) (fun b hb => hk b (by simp [hb])) h2
      refine ⟨t' :: ts', m :: ms, ?_, .cons e2 f2, .cons e3 f3⟩
      rw [legacyMetas, e1, C.bind_ok]
      dsimp only
      rw [f1, C.bind_ok]
      rfl

/-- The transaction inside a document without segwit inputs. -/
def legacyDoc (x : Transaction) (ks : List (Bytes × ElectrumKey)) : Transaction :=
  { x with ins := x.ins.zipWith (fun i k => { i with script := electrumScript k.1 k.2 }) ks }

theorem legacyDoc_facts {x : Transaction} (h : WireTx x) (h0 : x.ins ≠ []) (hx : ∀ i ∈ x.ins, i.script = [] ∧ i.witness = [])
    {ks : List (Bytes × ElectrumKey)} (hk : ∀ k ∈ ks, k.1.length = 5 ∧ k.2.Ok ∧ k.2.Good) (hl : x.ins.length = ks.length) :
    WireTx (legacyDoc x ks) ∧ ¬ hasWitness (legacyDoc x ks) ∧ (legacyDoc x ks).ins ≠ [] ∧ (legacyDoc x ks).ins.length = x.ins.length ∧
      electrumLegacy x ks = electrumMagic ++ txBytes (legacyDoc x ks) := by
  let y : Transaction := { x with ins := x.ins.zipWith (fun i k => { i with script := electrumScript k.1 k.2 }) ks }
  have hmem : ∀ i ∈ y.ins, ∃ j ∈ x.ins, ∃ k ∈ ks, i = { j with script := electrumScript k.1 k.2 } := by
    intro i hi
    obtain ⟨n, hn, rfl⟩ := List.getElem_of_mem hi
    have h2 : n < x.ins.length ∧ n < ks.length := by
      simp only [y, List.length_zipWith] at hn
      omega
    exact ⟨x.ins[n]'h2.1, List.getElem_mem _, ks[n]'h2.2, List.getElem_mem _, by simp [y]⟩
  have hsl : ∀ k ∈ ks, (electrumScript k.1 k.2).length = 87 := by
    intro k hkk
    obtain ⟨a1, a2, a3⟩ := hk k hkk
    simp [electrumScript, a1, a2.xpub]
  have hyl : y.ins.length = x.ins.length := by simp only [y, List.length_zipWith]; omega
  have hyw : WireTx y := by
    refine ⟨h.version, h.locktime, ?_, h.outs, ?_⟩
    · intro i hi
      obtain ⟨j, hj, k, hkk, rfl⟩ := hmem i hi
      have := h.ins j hj
      exact ⟨this.hash, this.index, by dsimp only; rw [hsl k hkk]; decide, this.sequence⟩
    · intro i hi
      obtain ⟨j, hj, k, hkk, rfl⟩ := hmem i hi
      exact h.items j hj
  have hnw : ¬ hasWitness y := by
    rintro ⟨i, hi, hne⟩
    obtain ⟨j, hj, k, hkk, rfl⟩ := hmem i hi
    exact hne (hx j hj).2
  have hy0 : y.ins ≠ [] := by
    intro hh
    have h1 := congrArg List.length hh
    rw [hyl] at h1
    exact h0 (List.length_eq_zero_iff.mp h1)
  have hdoc : electrumLegacy x ks = electrumMagic ++ txBytes y := by
    rw [txBytes, if_neg hnw]
    rfl
  exact ⟨hyw, hnw, hy0, hyl, hdoc⟩

end ElectrumTx

open ElectrumTx in
/-- C72: a document without segwit inputs is understood: the object gets the transaction with empty scripts, and for every input the two steps of derivation
and the extended key.  There are no amounts. -/
theorem C72_parse_legacy (junk : Bytes) (fuel : Nat) {e : ElectrumTx} (he : e.status = .done) {x : Transaction} (h : WireTx x) (h0 : x.ins ≠ [])
    (hi : x.ins.length < 253) (ho : x.outs.length < 253) (hx : ∀ i ∈ x.ins, i.script = [] ∧ i.witness = []) {ks : List (Bytes × ElectrumKey)}
    (hk : ∀ k ∈ ks, k.1.length = 5 ∧ k.2.Ok ∧ k.2.Good) (hl : x.ins.length = ks.length) (rest : Bytes) :
    ∃ e' : ElectrumTx, e.fromStream junk fuel (.of (electrumLegacy x ks ++ rest)) = some (e', (electrumLegacy x ks).length, .of rest) ∧ e'.status = .done ∧
      e'.isSegwit = false ∧ e'.tx.Holds x ∧ List.Forall₂ (fun m k => m.Says k.2 none) e'.metas ks := by
  obtain ⟨hyw, hnw, hy0, hyl, hdoc⟩ := legacyDoc_facts h h0 hx hk hl
  generalize hy : legacyDoc x ks = y at *
  have hyo : y.outs.length < 253 := by rw [← hy]; exact ho
  have hins : y.ins = x.ins.zipWith (fun i k => { i with script := electrumScript k.1 k.2 }) ks := by rw [← hy]; rfl
  have houts : y.outs = x.outs := by rw [← hy]; rfl
  have hver : y.version = x.version := by rw [← hy]; rfl
  have hlock : y.locktime = x.locktime := by rw [← hy]; rfl
  have hfeed := Tx.feed {} [] (txBytes y ++ rest) (Or.inl ⟨rfl, rfl⟩)
  unfold Tx.Out at hfeed
  rw [List.nil_append, readTx_complete y hyw hy0 (by omega) hyo rest] at hfeed
  obtain ⟨p1, p2, p3, p4⟩ := hfeed
  have p5 : (({} : Tx).fromStream (.of (txBytes y ++ rest))).2.1 = (txBytes y).length := by
    rw [List.length_append, List.length_nil] at p3
    omega
  obtain ⟨ts', ms, m1, m2, m3⟩ := legacyMetas_eq junk x.ins ks _ hl hk (by have := p2.ins; rwa [hins] at this)
  have hst : e.start = { status := .incomplete } := by
    unfold start
    rw [if_pos he]
  have hav : (PStream.of (txBytes y ++ rest)).avail = true := by
    rw [txBytes, if_neg hnw]
    rfl
  unfold fromStream
  rw [he, if_neg (by simp), hst, hdoc, List.append_assoc]
  dsimp only
  rw [List.drop_zero, readMagic_all]
  dsimp only
  rw [if_pos rfl]
  unfold ElectrumTx.readTx
  rw [if_pos ⟨rfl, hav, by decide⟩]
  dsimp only
  rw [p1, if_neg (by decide), if_pos rfl, m1, p4, p5]
  dsimp only
  rw [if_pos rfl]
  unfold afterTx
  dsimp only
  rw [if_neg (by decide)]
  unfold readSegwit
  dsimp only
  rw [if_neg (by simp), List.length_append, show electrumMagic.length = 6 from rfl]
  unfold stop
  refine ⟨_, rfl, rfl, rfl, ⟨by have := p2.version; rwa [hver] at this, ?_, by have := p2.outs; rwa [houts] at this, by have := p2.locktime; rwa [hlock] at this⟩, m3⟩
  · have : x.ins.map (fun i => ({ i with script := [] } : In)) = x.ins := by
      conv_rhs => rw [← List.map_id x.ins]
      apply List.map_congr_left
      intro i hi
      have := (hx i hi).1
      cases i; simp_all
    rwa [this] at m2

/-! ### Fee -/

/-- The amount spent by an input is known. -/
def ElectrumMeta.Spends (m : ElectrumMeta) (a : Nat) : Prop := ∃ v : UInt64, m.amount = some v ∧ v.toNat = a

theorem ElectrumTx.inputSum_eq : ∀ (ms : List ElectrumMeta) (as : List Nat) (acc : UInt64), List.Forall₂ ElectrumMeta.Spends ms as → (∀ a ∈ as, a ≠ 0) →
    ElectrumTx.inputSum ms.length ms acc = .ok (some (acc + UInt64.ofNat as.sum))
  | [], _, acc, .nil, _ => by simp [ElectrumTx.inputSum]
  | m :: ms, a :: as, acc, .cons h hs, h0 => by
    obtain ⟨v, hv, rfl⟩ := h
    have hne : v ≠ 0 := fun hh => h0 v.toNat (by simp) (by rw [hh]; rfl)
    rw [List.length_cons, ElectrumTx.inputSum, hv]
    dsimp only
    rw [if_neg hne, inputSum_eq ms as _ hs (fun b hb => h0 b (by simp [hb])), List.sum_cons, UInt64.ofNat_add, UInt64.ofNat_toNat, UInt64.add_assoc]

theorem ElectrumTx.outSum_eq : ∀ (ts : List TxOut) (os : List Spec.Out) (acc : UInt64), List.Forall₂ TxOut.Holds ts os →
    ts.foldl (fun a o => a + o.amount) acc = acc + UInt64.ofNat (os.map (·.amount)).sum
  | [], _, acc, .nil => by simp
  | t :: ts, o :: os, acc, .cons h hs => by
    rw [List.foldl_cons, outSum_eq ts os _ hs, List.map_cons, List.sum_cons, UInt64.ofNat_add, ← h.amount, UInt64.ofNat_toNat, UInt64.add_assoc]

/-- C72: the fee, exactly: the difference of the sums modulo 2^64, or 0 if that of the inputs is less; as long as all amounts are known and not 0. -/
theorem C72_fee_exact {e : ElectrumTx} {x : Transaction} {as : List Nat} (h : e.tx.Holds x) (hl : as.length = x.ins.length)
    (hm : List.Forall₂ ElectrumMeta.Spends e.metas as) (h0 : ∀ a ∈ as, a ≠ 0) :
    ∃ f, e.fee = .ok f ∧ f.toNat = as.sum % 2 ^ 64 - (x.outs.map (·.amount)).sum % 2 ^ 64 := by
  unfold ElectrumTx.fee
  have hn : e.tx.txIns.length = e.metas.length := by rw [h.ins.length_eq, hm.length_eq, hl]
  rw [hn, ElectrumTx.inputSum_eq _ _ _ hm h0, C.bind_ok]
  dsimp only
  rw [ElectrumTx.outSum_eq _ _ _ h.outs, UInt64.zero_add, UInt64.zero_add]
  refine ⟨_, rfl, ?_⟩
  split
  · rename_i hlt
    rw [UInt64.lt_iff_toNat_lt, UInt64.toNat_ofNat', UInt64.toNat_ofNat'] at hlt
    show 0 = _
    omega
  · rename_i hlt
    rw [UInt64.lt_iff_toNat_lt] at hlt
    rw [UInt64.toNat_sub_of_le _ _ (by rw [UInt64.le_iff_toNat_le]; omega), UInt64.toNat_ofNat', UInt64.toNat_ofNat']

/-- C72: the fee is what the inputs have more than the outputs. -/
theorem C72_fee {e : ElectrumTx} {x : Transaction} {as : List Nat} (h : e.tx.Holds x) (hl : as.length = x.ins.length)
    (hm : List.Forall₂ ElectrumMeta.Spends e.metas as) (h0 : ∀ a ∈ as, a ≠ 0) (hs : as.sum < 2 ^ 64) (ho : (x.outs.map (·.amount)).sum ≤ as.sum) :
    ∃ f, e.fee = .ok f ∧ f.toNat + (x.outs.map (·.amount)).sum = as.sum := by
  obtain ⟨f, f1, f2⟩ := C72_fee_exact h hl hm h0
  refine ⟨f, f1, ?_⟩
  rw [f2, Nat.mod_eq_of_lt hs, Nat.mod_eq_of_lt (by omega)]
  omega

/-- C72, code and claim disagree: the fee of a transaction whose outputs exceed its inputs is reported as 0. -/
theorem C72_fee_negative {e : ElectrumTx} {x : Transaction} {as : List Nat} (h : e.tx.Holds x) (hl : as.length = x.ins.length)
    (hm : List.Forall₂ ElectrumMeta.Spends e.metas as) (h0 : ∀ a ∈ as, a ≠ 0) (ho : as.sum < (x.outs.map (·.amount)).sum)
    (hs : (x.outs.map (·.amount)).sum < 2 ^ 64) : e.fee = .ok 0 := by
  obtain ⟨f, f1, f2⟩ := C72_fee_exact h hl hm h0
  rw [f1]
  congr 1
  rw [← UInt64.toNat_inj, f2, Nat.mod_eq_of_lt hs, Nat.mod_eq_of_lt (by omega)]
  show _ = 0
  omega

/-- C72, code and claim disagree: for a document without segwit inputs `fee` reads amounts that nobody has written. -/
theorem C72_fee_undefined {e : ElectrumTx} {m : ElectrumMeta} {ms : List ElectrumMeta} (hm : e.metas = m :: ms) (ha : m.amount = none) (h0 : e.tx.txIns ≠ []) :
    e.fee = .ub := by
  unfold ElectrumTx.fee
  cases hi : e.tx.txIns with
  | nil => exact absurd hi h0
  | cons i is =>
    rw [hm, List.length_cons, ElectrumTx.inputSum, ha]
    rfl


/-! ### Signing -/

/-- What the metadata of an input says, for signing: the point of the extended key, its type, the two steps and the amount. -/
structure Spec.ElectrumInfo where
  point : Pt
  type : HDType
  change : Nat
  index : Nat
  amount : Nat

namespace Spec.ElectrumInfo

/-- The types for which the input is signed in the old way. -/
def Legacy (f : ElectrumInfo) : Prop := f.type = .p2pkh ∨ f.type = .p2sh ∨ f.type = .unknown ∨ f.type = .directScript

instance (f : ElectrumInfo) : Decidable f.Legacy := by unfold Legacy; infer_instance

/-- The secret of the account `d`, `c` for the input. -/
noncomputable def secret (f : ElectrumInfo) (d : Nat) (c : Bytes) : Nat := (keyAt d c [f.change, f.index]).1

/-- The hash of the public key for the input. -/
noncomputable def keyHash (f : ElectrumInfo) (d : Nat) (c : Bytes) : Bytes := Spec.hash160 (secOf true (f.secret d c • G))

/-- The script of the output that the input may spend. -/
noncomputable def spends (f : ElectrumInfo) (d : Nat) (c : Bytes) : Bytes :=
  if f.Legacy then p2pkhScript (f.keyHash d c)
  else if f.type = .p2sh_p2wpkh ∨ f.type = .p2sh_p2wsh then p2shScript (Spec.hash160 (p2wpkhScript (f.keyHash d c)))
  else p2wpkhScript (f.keyHash d c)

/-- The message that is signed. -/
noncomputable def digest (f : ElectrumInfo) (d : Nat) (c : Bytes) (x : Transaction) (i : Nat) (inp : In) : Bytes :=
  if f.Legacy then legacySigHash x i (p2pkhScript (f.keyHash d c)) 1 else segwitSigHash x i inp (p2pkhScript (f.keyHash d c)) f.amount 1

/-- The secret is not zero and the search for a nonce ends (both fail with negligible probability only). -/
def Signable (f : ElectrumInfo) (d : Nat) (c : Bytes) (x : Transaction) (i : Nat) (inp : In) : Prop :=
  0 < f.secret d c ∧ ecdsaDeterministic (beBytes 32 (f.secret d c)) (f.digest d c x i inp) 10000 ≠ none

end Spec.ElectrumInfo

/-- The metadata says so. -/
structure ElectrumMeta.Knows (m : ElectrumMeta) (f : ElectrumInfo) : Prop where
  point : m.hd.key.Holds f.point
  type : m.hd.head.type = f.type
  derivation : ∃ a b : UInt16, m.derivation = some (a, b) ∧ a.toNat = f.change ∧ b.toNat = f.index
  amount : f.Legacy ∨ ∃ v : UInt64, m.amount = some v ∧ v.toNat = f.amount

/-- Good random numbers. -/
structure ElectrumTx.SignEnv.Good (env : ElectrumTx.SignEnv) : Prop where
  child : ∀ i, Blind (env.child i)
  grandchild : ∀ i, Blind (env.grandchild i)
  sig : ∀ i, Draws (env.sig i)

attribute [local irreducible] secpP secpN BN.multiply BN.fastMod BN.mod BN.subtractmod BN.multK BN.addmod BN.inverse BN.lshift BN.subi BN.add
  BN.multHalf BN.cmov BN.isEqual BN.isZero BN.sqrt BN.subtract scalarMultiply pointMultiply CurvePoint.add readBE writeBE BN.addi doubleSha Spec.hash256
  hmac512 hmacSha512 hash160 Spec.hash160 signDigest ecdsaDeterministic signatureOf keyAt

theorem HDPriv.two_children {k : HDPriv} {d : Nat} {c : Bytes} (h : k.IsKey d c) {z0 z1 : BN} (hz0 : Blind z0) (hz1 : Blind z1) (a b : UInt32) :
    ∃ q r, k.child a false z0 = .ok q ∧ q.child b false z1 = .ok r ∧ r.IsKey (keyAt d c [a.toNat, b.toNat]).1 (keyAt d c [a.toNat, b.toNat]).2 := by
  obtain ⟨r, e, hr⟩ := HDPriv.derive_isKey h (rnd := fun n => if n = 0 then z0 else z1) (fun n => by split <;> assumption) [a, b]
  simp only [HDPriv.derive] at e
  rw [if_pos trivial, if_neg (by omega)] at e
  cases h1 : k.child a false z0 with
  | ub => rw [h1] at e; cases e
  | ok q =>
    rw [h1, C.bind_ok] at e
    cases h2 : q.child b false z1 with
    | ub => rw [h2] at e; cases e
    | ok r' =>
      rw [h2, C.bind_ok] at e
      cases e
      exact ⟨q, r, rfl, h2, hr⟩

/-- What signing has achieved for the inputs below `n`, the transaction being `y` now. -/
structure ElectrumTx.Progress (x y : Transaction) (fs : List ElectrumInfo) (d : Nat) (c : Bytes) (n : Nat) : Prop where
  same : SameButScripts x y
  wire : WireTx y
  others : ∀ i : Nat, (n ≤ i ∨ ∀ f : ElectrumInfo, fs[i]? = some f → f.point ≠ d • G) → y.ins[i]? = x.ins[i]?
  signed : ∀ (i : Nat) (f : ElectrumInfo), i < n → i < x.ins.length → fs[i]? = some f → f.point = d • G → InputOk y i f.amount (f.spends d c)

theorem Spec.SameButScripts.trans {x y z : Transaction} (h : SameButScripts x y) (g : SameButScripts y z) : SameButScripts x z := by
  refine ⟨h.version.trans g.version, h.outs.trans g.outs, h.locktime.trans g.locktime, ?_⟩
  have h1 := List.forall₂_iff_get.mp h.ins
  have g1 := List.forall₂_iff_get.mp g.ins
  refine List.forall₂_iff_get.mpr ⟨h1.1.trans g1.1, fun i p q => ?_⟩
  obtain ⟨a1, a2, a3⟩ := h1.2 i p (by rw [← h1.1]; exact p)
  obtain ⟨b1, b2, b3⟩ := g1.2 i (by rw [← h1.1]; exact p) q
  exact ⟨a1.trans b1, a2.trans b2, a3.trans b3⟩

open ElectrumTx in
/-- One input. -/
theorem ElectrumTx.signStep_eq {x y : Transaction} {t : Tx} {fs : List ElectrumInfo} {d : Nat} {c : Bytes} {account : HDPriv} {env : SignEnv} (hk : account.IsKey d c)
    (he : env.Good) (hni : x.ins.length < 253) (hno : x.outs.length < 253) (hw : ∀ i ∈ x.ins, i.witness = []) {i : Nat} {inp : In} (hin : x.ins[i]? = some inp)
    {m : ElectrumMeta} {f : ElectrumInfo} (hf : fs[i]? = some f) (hm : m.Knows f) (hs : f.point = d • G → f.Signable d c x i inp) (ht : t.Holds y)
    (hp : Progress x y fs d c i) (res : UInt8) :
    ∃ t' y', signStep account env i m t res = .ok (t', res + if f.point = d • G then 1 else 0) ∧ t'.Holds y' ∧ Progress x y' fs d c (i + 1) := by
  have hpt : account.xpub.key.Holds (d • G) := hk.sound.pub
  unfold signStep
  dsimp only
  by_cases hP : f.point = d • G
  · rw [if_pos ((ECPoint.eq_iff hpt hm.point).mpr hP.symm), if_pos hP]
    obtain ⟨a, b, hd1, hd2, hd3⟩ := hm.derivation
    rw [hd1]
    dsimp only
    obtain ⟨q, r, q1, q2, q3⟩ := HDPriv.two_children hk (he.child i) (he.grandchild i) a.toUInt32 b.toUInt32
    rw [q1, C.bind_ok, q2, C.bind_ok]
    have ha : a.toUInt32.toNat = f.change := by rw [← hd2]; simp
    have hb : b.toUInt32.toNat = f.index := by rw [← hd3]; simp
    rw [ha, hb] at q3
    obtain ⟨hpos, hnonce⟩ := hs hP
    have hpk : r.toPriv.Holds (f.secret d c) := ⟨q3.sound.num, hpos, q3.sound.lt, q3.sound.pub⟩
    have hil : i < x.ins.length := (List.getElem?_eq_some_iff.mp hin).1
    have hidx : (UInt8.ofNat i).toNat = i := by simp; omega
    have hlen : y.ins.length = x.ins.length := (hp.same.ins.length_eq).symm
    have hyi : y.ins[i]? = some inp := by rw [hp.others i (Or.inl (Nat.le_refl i)), hin]
    have hwi : inp.witness = [] := hw inp (List.mem_of_getElem? hin)
    have hS : t.SignSetting y (UInt8.ofNat i) inp r.toPriv (f.secret d c) (env.sig i) :=
      ⟨ht, hp.wire, by omega, by rw [← hp.same.outs]; exact hno, by rw [hidx]; exact hyi, hpk, he.sig i⟩
    have hcomp : r.toPriv.pubKey.compressed = true := q3.compressed
    have finish : ∀ (s : Bytes) (w : List Bytes), WireTx (y.setIn i { inp with script := s, witness := w }) →
        InputOk (y.setIn i { inp with script := s, witness := w }) i f.amount (f.spends d c) →
        Progress x (y.setIn i { inp with script := s, witness := w }) fs d c (i + 1) := by
      intro s w hwire hok
      have hsame := sameButScripts_setIn y hyi s w
      refine ⟨hp.same.trans hsame, hwire, ?_, ?_⟩
      · intro j hj
        have hij : i ≠ j := by
          rintro rfl
          rcases hj with hj | hj
          · omega
          · exact hj f hf hP
        have : (y.setIn i { inp with script := s, witness := w }).ins[j]? = y.ins[j]? := by simp [Transaction.setIn, hij]
        rw [this]
        exact hp.others j (hj.imp (fun h => by omega) id)
      · intro j g hj hjl hg hgP
        by_cases hij : j = i
        · subst hij
          rw [hf] at hg
          cases hg
          exact hok
        · refine (C71_others hsame ?_ _ _).mp (hp.signed j g (by omega) hjl hg hgP)
          simp [Transaction.setIn, Ne.symm hij]
    rw [hm.type]
    by_cases hL : f.Legacy
    · rw [if_pos (show f.type = .p2pkh ∨ f.type = .p2sh ∨ f.type = .unknown ∨ f.type = .directScript from hL)]
      have hdig : f.digest d c x i inp = legacySigHash y i (p2pkhScript (f.keyHash d c)) 1 := by
        unfold ElectrumInfo.digest
        rw [if_pos hL]
        exact legacySigHash_same hp.same _ _ _
      obtain ⟨t', g, s, e1, e2, e3, e4⟩ := C71_p2pkh hS hwi f.amount (by rw [hidx, hcomp]; rw [hdig] at hnonce; exact hnonce)
      rw [e1, C.bind_ok]
      rw [hidx] at e2 e3 e4
      refine ⟨t', _, rfl, e2, finish s inp.witness e3 ?_⟩
      unfold ElectrumInfo.spends
      rw [if_pos hL]
      rw [hcomp] at e4
      exact e4
    · rw [if_neg (show ¬ (f.type = .p2pkh ∨ f.type = .p2sh ∨ f.type = .unknown ∨ f.type = .directScript) from hL)]
      obtain ⟨v, v1, v2⟩ := hm.amount.resolve_left hL
      rw [v1]
      dsimp only
      have hdig : f.digest d c x i inp = segwitSigHash y i inp (p2pkhScript (f.keyHash d c)) f.amount 1 := by
        unfold ElectrumInfo.digest
        rw [if_neg hL]
        exact segwitSigHash_same hp.same _ rfl rfl rfl _ _ _
      obtain ⟨t', g, s, w, e1, e2, e3, e4⟩ := C71_segwit_key hS v f.type.scriptType (by rw [hidx, hcomp, v2]; rw [hdig] at hnonce; exact hnonce)
      rw [e1, C.bind_ok]
      rw [hidx] at e2 e3 e4
      refine ⟨t', _, rfl, e2, finish s w e3 ?_⟩
      unfold ElectrumInfo.spends
      rw [if_neg hL]
      rw [hcomp, v2] at e4
      have : (f.type.scriptType = .p2sh_p2wpkh ∨ f.type.scriptType = .p2sh_p2wsh) ↔ (f.type = .p2sh_p2wpkh ∨ f.type = .p2sh_p2wsh) := by
        cases f.type <;> simp [HDType.scriptType]
      rw [if_congr this rfl rfl] at e4
      exact e4
  · rw [if_neg (fun h => hP ((ECPoint.eq_iff hpt hm.point).mp h).symm), if_neg hP]
    refine ⟨t, y, by simp, ht, hp.same, hp.wire, ?_, ?_⟩
    · intro j hj
      by_cases hij : j = i
      · subst hij
        exact hp.others j (Or.inr fun g hg => by rw [hf] at hg; cases hg; exact hP)
      · exact hp.others j (hj.imp (fun h => by omega) id)
    · intro j g hj hjl hg hgP
      by_cases hij : j = i
      · subst hij
        rw [hf] at hg
        cases hg
        exact absurd hgP hP
      · exact hp.signed j g (by omega) hjl hg hgP

open Classical in
/-- The number of inputs that belong to the account. -/
noncomputable def Spec.ownInputs (fs : List ElectrumInfo) (d : Nat) : Nat := fs.countP fun f => decide (f.point = d • G)

open ElectrumTx in
theorem ElectrumTx.signLoop_eq {x : Transaction} {fs : List ElectrumInfo} {d : Nat} {c : Bytes} {account : HDPriv} {env : SignEnv} (hk : account.IsKey d c)
    (he : env.Good) (hni : x.ins.length < 253) (hno : x.outs.length < 253) (hw : ∀ i ∈ x.ins, i.witness = []) {ms : List ElectrumMeta}
    (hm : List.Forall₂ ElectrumMeta.Knows ms fs) (hl : fs.length = x.ins.length)
    (hs : ∀ (i : Nat) (f : ElectrumInfo) (inp : In), fs[i]? = some f → x.ins[i]? = some inp → f.point = d • G → f.Signable d c x i inp) :
    ∀ (n i : Nat) (t : Tx) (y : Transaction) (res : UInt8), i + n = x.ins.length → t.Holds y → Progress x y fs d c i →
      ∃ t' y', signLoop account env ms n i t res = .ok (t', res + UInt8.ofNat (ownInputs (fs.drop i) d)) ∧ t'.Holds y' ∧ Progress x y' fs d c x.ins.length
  | 0, i, t, y, res, hi, ht, hp => by
    rw [Nat.add_zero] at hi
    refine ⟨t, y, ?_, ht, hi ▸ hp⟩
    rw [signLoop, List.drop_of_length_le (by omega)]
    simp [ownInputs]
  | n + 1, i, t, y, res, hi, ht, hp => by
    have hil : i < x.ins.length := by omega
    obtain ⟨f, hf⟩ : ∃ f, fs[i]? = some f := ⟨fs[i]'(by omega), List.getElem?_eq_getElem _⟩
    obtain ⟨inp, hin⟩ : ∃ inp, x.ins[i]? = some inp := ⟨x.ins[i]'hil, List.getElem?_eq_getElem _⟩
    have hml : ms.length = fs.length := hm.length_eq
    have hmi : ms[i]? = some (ms[i]'(by omega)) := List.getElem?_eq_getElem _
    have hkn : (ms[i]'(by omega)).Knows f := by
      have := (List.forall₂_iff_get.mp hm).2 i (by omega) (by omega)
      rw [List.getElem?_eq_getElem (by omega)] at hf
      cases hf
      exact this
    obtain ⟨t1, y1, e1, e2, e3⟩ := signStep_eq hk he hni hno hw hin hf hkn (hs i f inp hf hin) ht hp res
    obtain ⟨t', y', g1, g2, g3⟩ := signLoop_eq hk he hni hno hw hm hl hs n (i + 1) t1 y1 (res + if f.point = d • G then 1 else 0) (by omega) e2 e3
    refine ⟨t', y', ?_, g2, g3⟩
    rw [signLoop, hmi]
    dsimp only
    rw [e1, C.bind_ok]
    dsimp only
    rw [g1]
    have hdrop : fs.drop i = f :: fs.drop (i + 1) := by
      rw [List.getElem?_eq_getElem (by omega)] at hf
      cases hf
      exact List.drop_eq_getElem_cons (by omega)
    rw [hdrop]
    unfold ownInputs
    rw [List.countP_cons, UInt8.add_assoc]
    congr 3
    by_cases hP : f.point = d • G
    · simp [hP, UInt8.add_comm]
    · simp [hP]

open ElectrumTx in
/-- C72: `sign` with the key of an account signs exactly the inputs whose extended key belongs to the account, each with the key two derivation steps below;
these inputs may then spend the outputs to that key (hash of the key, segwit, or nested segwit, as the type of the extended key says) with the stated
amounts; all other inputs and everything else stays as it was; the return value is the number of inputs signed. -/
theorem C72_sign {e : ElectrumTx} {x : Transaction} {fs : List ElectrumInfo} {d : Nat} {c : Bytes} {account : HDPriv} {env : SignEnv} (hk : account.IsKey d c)
    (he : env.Good) (ht : e.tx.Holds x) (hx : WireTx x) (hni : x.ins.length < 253) (hno : x.outs.length < 253) (hw : ∀ i ∈ x.ins, i.witness = [])
    (hm : List.Forall₂ ElectrumMeta.Knows e.metas fs) (hl : fs.length = x.ins.length)
    (hs : ∀ (i : Nat) (f : ElectrumInfo) (inp : In), fs[i]? = some f → x.ins[i]? = some inp → f.point = d • G → f.Signable d c x i inp) :
    ∃ e' n y, e.sign account env = .ok (e', n) ∧ n.toNat = ownInputs fs d ∧ e'.tx.Holds y ∧ SameButScripts x y ∧
      (∀ (i : Nat) (f : ElectrumInfo), fs[i]? = some f → f.point ≠ d • G → y.ins[i]? = x.ins[i]?) ∧
      (∀ (i : Nat) (f : ElectrumInfo), fs[i]? = some f → f.point = d • G → InputOk y i f.amount (f.spends d c)) := by
  have hp : Progress x x fs d c 0 := by
    refine ⟨⟨rfl, rfl, rfl, List.forall₂_same.mpr fun _ _ => ⟨rfl, rfl, rfl⟩⟩, hx, fun _ _ => rfl, fun i f h => by omega⟩
  obtain ⟨t', y, e1, e2, e3⟩ := signLoop_eq hk he hni hno hw hm hl hs x.ins.length 0 e.tx x 0 (by omega) ht hp
  unfold ElectrumTx.sign
  rw [ht.ins.length_eq, e1, C.bind_ok]
  refine ⟨_, _, y, rfl, ?_, e2, e3.same, ?_, ?_⟩
  · rw [List.drop_zero, UInt8.zero_add, UInt8.toNat_ofNat', Nat.mod_eq_of_lt]
    have : ownInputs fs d ≤ fs.length := List.countP_le_length
    omega
  · intro i f hf hP
    exact e3.others i (Or.inr fun g hg => by rw [hf] at hg; cases hg; exact hP)
  · intro i f hf hP
    have := (List.getElem?_eq_some_iff.mp hf).1
    exact e3.signed i f (by omega) (by omega) hf hP


/-! ### From the document to the signatures -/

/-- An entry of a document and what it means: the extended key is a point with a type. -/
structure Spec.ElectrumKey.Means (k : ElectrumKey) (f : ElectrumInfo) : Prop where
  ok : k.Ok
  key : ∃ hd : HDPub, hd.Holds f.point ∧ hd.head.network ∈ networks ∧ k.xpub = hd.whole f.point ∧ f.type = storedType hd.head.type
  change : f.change = k.change
  index : f.index = k.index
  amount : f.amount = k.amount

theorem Spec.ElectrumKey.Means.good {k : ElectrumKey} {f : ElectrumInfo} (h : k.Means f) : k.Good := by
  obtain ⟨hd, h1, h2, h3, -⟩ := h.key
  exact ⟨hd, _, h1, h2, h3⟩

/-- What is read from an entry is what signing needs. -/
theorem ElectrumMeta.Says.knows {m : ElectrumMeta} {k : ElectrumKey} {f : ElectrumInfo} (h : k.Means f) (hm : m.Says k (some k.amount)) : m.Knows f := by
  obtain ⟨hd, h1, h2, h3, h4⟩ := h.key
  obtain ⟨g1, g2⟩ := hm.key hd _ h1 h2 h3
  refine ⟨g1.point, g2.type.trans h4.symm, ⟨_, _, hm.derivation, ?_, ?_⟩, Or.inr ⟨_, hm.amount, ?_⟩⟩
  · rw [h.change]; simp; exact h.ok.change
  · rw [h.index]; simp; exact h.ok.index
  · rw [h.amount]; simp; exact h.ok.amount

theorem ElectrumMeta.Says.spends {m : ElectrumMeta} {k : ElectrumKey} (h : k.Ok) (hm : m.Says k (some k.amount)) : m.Spends k.amount :=
  ⟨_, hm.amount, by simp; exact h.amount⟩

theorem Spec.Transaction.bare_of {x : Transaction} (hw : ∀ i ∈ x.ins, i.witness = []) : x.bare = x := by
  have : x.ins.map (fun i => ({ i with witness := [] } : In)) = x.ins := by
    conv_rhs => rw [← List.map_id x.ins]
    apply List.map_congr_left
    intro i hi
    have := hw i hi
    cases i; simp_all
  unfold Transaction.bare
  rw [this]

open ElectrumTx in
/-- C72: reading a segwit document for one to five inputs and signing it: exactly the inputs with the extended key of the account become able to spend what
the document says, with the amounts of the document, and nothing else changes. -/
theorem C72_document (junk : Bytes) (fuel : Nat) {x : Transaction} (hx : WireTx x) (h1 : 1 ≤ x.ins.length) (h5 : x.ins.length ≤ 5) (ho : x.outs.length < 253)
    (hw : ∀ i ∈ x.ins, i.witness = []) {ks : List ElectrumKey} {fs : List ElectrumInfo} (hk : List.Forall₂ ElectrumKey.Means ks fs) (hl : ks.length = x.ins.length)
    (rest : Bytes) {d : Nat} {c : Bytes} {account : HDPriv} {env : SignEnv} (ha : account.IsKey d c) (he : env.Good)
    (hs : ∀ (i : Nat) (f : ElectrumInfo) (inp : In), fs[i]? = some f → x.ins[i]? = some inp → f.point = d • G → f.Signable d c x i inp) :
    ∃ e e' n y, ({} : ElectrumTx).fromStream junk (fuel + 2) (.of (electrumSegwit x ks ++ rest)) = some (e, (electrumSegwit x ks).length, .of rest) ∧
      e.sign account env = .ok (e', n) ∧ n.toNat = ownInputs fs d ∧ e'.tx.Holds y ∧ SameButScripts x y ∧
      (∀ (i : Nat) (f : ElectrumInfo), fs[i]? = some f → f.point ≠ d • G → y.ins[i]? = x.ins[i]?) ∧
      (∀ (i : Nat) (f : ElectrumInfo), fs[i]? = some f → f.point = d • G → InputOk y i f.amount (f.spends d c)) := by
  have hkg : ∀ k ∈ ks, k.Ok ∧ k.Good := by
    intro k hkk
    obtain ⟨i, hi, rfl⟩ := List.getElem_of_mem hkk
    have := (List.forall₂_iff_get.mp hk).2 i hi (by rw [← hk.length_eq]; exact hi)
    exact ⟨this.ok, this.good⟩
  obtain ⟨e, e1, -, -, e4, e5⟩ := C72_parse_segwit junk fuel (e := {}) rfl hx h1 h5 ho hkg hl rest
  rw [Transaction.bare_of hw] at e4
  have hkn : List.Forall₂ ElectrumMeta.Knows e.metas fs := by
    have a := List.forall₂_iff_get.mp e5
    have b := List.forall₂_iff_get.mp hk
    refine List.forall₂_iff_get.mpr ⟨a.1.trans b.1, fun i p q => ?_⟩
    exact (a.2 i p (by rw [← a.1]; exact p)).knows (b.2 i (by rw [← a.1]; exact p) q)
  obtain ⟨e', n, y, g1, g2, g3, g4, g5, g6⟩ := C72_sign ha he e4 hx (by omega) ho hw hkn (by rw [← hk.length_eq, hl]) hs
  exact ⟨e, e', n, y, e1, g1, g2, g3, g4, g5, g6⟩

open ElectrumTx in
/-- C72: after reading a segwit document for one to five inputs `fee` is what the amounts in the document exceed the outputs by. -/
theorem C72_document_fee (junk : Bytes) (fuel : Nat) {x : Transaction} (hx : WireTx x) (h1 : 1 ≤ x.ins.length) (h5 : x.ins.length ≤ 5) (ho : x.outs.length < 253)
    {ks : List ElectrumKey} (hk : ∀ k ∈ ks, k.Ok ∧ k.Good) (hl : ks.length = x.ins.length) (rest : Bytes) (h0 : ∀ k ∈ ks, k.amount ≠ 0)
    (hs : (ks.map (·.amount)).sum < 2 ^ 64) (hle : (x.outs.map (·.amount)).sum ≤ (ks.map (·.amount)).sum) :
    ∃ e f, ({} : ElectrumTx).fromStream junk (fuel + 2) (.of (electrumSegwit x ks ++ rest)) = some (e, (electrumSegwit x ks).length, .of rest) ∧
      e.fee = .ok f ∧ f.toNat + (x.outs.map (·.amount)).sum = (ks.map (·.amount)).sum := by
  obtain ⟨e, e1, -, -, e4, e5⟩ := C72_parse_segwit junk fuel (e := {}) rfl hx h1 h5 ho hk hl rest
  have hsp : List.Forall₂ ElectrumMeta.Spends e.metas (ks.map (·.amount)) := by
    rw [List.forall₂_map_right_iff]
    have a := List.forall₂_iff_get.mp e5
    refine List.forall₂_iff_get.mpr ⟨a.1, fun i p q => (a.2 i p q).spends (hk _ (List.get_mem ks ⟨i, q⟩)).1⟩
  obtain ⟨f, f1, f2⟩ := C72_fee e4 (by rw [List.length_map, hl]; simp [Transaction.bare]) hsp (by simpa using h0) hs hle
  exact ⟨e, f, e1, f1, f2⟩

open ElectrumTx in
/-- C72, code and claim disagree: signing an object into which nothing, or nothing acceptable, has been read, but which has inputs, follows a null pointer. -/
theorem C72_sign_undefined {e : ElectrumTx} (hm : e.metas = []) (h0 : e.tx.txIns ≠ []) (account : HDPriv) (env : SignEnv) : e.sign account env = .ub := by
  unfold ElectrumTx.sign
  cases hi : e.tx.txIns with
  | nil => exact absurd hi h0
  | cons i is =>
    rw [hm, List.length_cons, ElectrumTx.signLoop]
    rfl

/-! ### Examples -/

theorem hdOne_isKey : hdOne.IsKey 1 (zeros 32) :=
  ⟨holds_hdOne.sound, rfl, rfl⟩

/-- An entry with the extended key of `hdOne`. -/
noncomputable def exElectrumKey (amount : Nat) : ElectrumKey := ⟨amount, zeros 7, hdOne.xpub.whole G, 0, 5⟩

theorem exElectrumKey_means {a : Nat} (ha : a < 2 ^ 64) : (exElectrumKey a).Means ⟨(1 : Nat) • G, .p2wpkh, 0, 5, a⟩ := by
  have h := HDPriv.xpub_holds holds_hdOne
  refine ⟨⟨ha, rfl, ?_, show 0 < 2 ^ 16 by decide, show 5 < 2 ^ 16 by decide⟩, ⟨hdOne.xpub, h, by decide, ?_, rfl⟩, rfl, rfl, rfl⟩
  · show (hdOne.xpub.whole G).length = 78
    rw [one_nsmul] at h
    exact HDPub.whole_length h (by decide)
  · show hdOne.xpub.whole G = hdOne.xpub.whole ((1 : Nat) • G)
    rw [one_nsmul]

/-- Its meaning. -/
noncomputable def exElectrumInfo : ElectrumInfo := ⟨(1 : Nat) • G, .p2wpkh, 0, 5, 5000000000⟩

def exElectrumIn : In := ⟨hash256 (legacyBytes exTxSpec), 0, [], 0xfffffffe, []⟩

theorem exPsbtTx_ins : exPsbtTx.ins = [exElectrumIn] := rfl

theorem exElectrumInfo_spends : exElectrumInfo.spends 1 (zeros 32) = p2wpkhScript (exElectrumInfo.keyHash 1 (zeros 32)) := by
  unfold ElectrumInfo.spends
  rw [if_neg (by simp [ElectrumInfo.Legacy, exElectrumInfo]), if_neg (by simp [exElectrumInfo])]

theorem exElectrumInfo_own : ownInputs [exElectrumInfo] 1 = 1 := by
  simp [ownInputs, exElectrumInfo]

/-- C72_document, C72_parse_segwit: a document with one input, of the account itself.  (Props/SignVector shows that the nonce is found.) -/
theorem exElectrum_spends (junk : Bytes) (rest : Bytes) (hs : exElectrumInfo.Signable 1 (zeros 32) exPsbtTx 0 exElectrumIn) :
    ∃ e e' y, ({} : ElectrumTx).fromStream junk 2 (.of (electrumSegwit exPsbtTx [exElectrumKey 5000000000] ++ rest)) =
        some (e, (electrumSegwit exPsbtTx [exElectrumKey 5000000000]).length, .of rest) ∧
      e.sign hdOne ⟨fun _ => BN.one, fun _ => BN.one, fun _ _ => (BN.one, BN.one)⟩ = .ok (e', 1) ∧ e'.tx.Holds y ∧ SameButScripts exPsbtTx y ∧
      InputOk y 0 exElectrumInfo.amount (p2wpkhScript (exElectrumInfo.keyHash 1 (zeros 32))) := by
  have hmem : ∀ i ∈ exPsbtTx.ins, i.witness = [] := by
    intro i hi
    rw [exPsbtTx_ins, List.mem_singleton] at hi
    rw [hi]
    rfl
  obtain ⟨e, e', n, y, e1, e2, e3, e4, e5, -, e6⟩ := C72_document junk 0 exPsbtTx_wire (by decide) (by decide) (by decide) hmem
    (ks := [exElectrumKey 5000000000]) (fs := [exElectrumInfo]) (.cons (exElectrumKey_means (by decide)) .nil) rfl rest hdOne_isKey
    (env := ⟨fun _ => BN.one, fun _ => BN.one, fun _ _ => (BN.one, BN.one)⟩) ⟨fun _ => blind_one, fun _ => blind_one, fun _ => draws_one⟩ (by
      intro i f inp h1 h2 _
      rw [exPsbtTx_ins] at h2
      cases i with
      | zero =>
        rw [List.getElem?_cons_zero, Option.some.injEq] at h1 h2
        rw [← h1, ← h2]
        exact hs
      | succ i =>
        rw [List.getElem?_cons_succ, List.getElem?_nil] at h1
        cases h1)
  have hn : n = 1 := by
    rw [← UInt8.toNat_inj, e3, exElectrumInfo_own]
    rfl
  rw [hn] at e2
  have h6 := e6 0 exElectrumInfo rfl rfl
  rw [exElectrumInfo_spends] at h6
  exact ⟨e, e', y, e1, e2, e4, e5, h6⟩

/-- C72_document_fee: its fee. -/
example (junk : Bytes) (rest : Bytes) : ∃ e f, ({} : ElectrumTx).fromStream junk 2 (.of (electrumSegwit exPsbtTx [exElectrumKey 5000000000] ++ rest)) =
      some (e, (electrumSegwit exPsbtTx [exElectrumKey 5000000000]).length, .of rest) ∧ e.fee = .ok f ∧ f.toNat = 10000 := by
  obtain ⟨e, f, e1, e2, e3⟩ := C72_document_fee junk 0 exPsbtTx_wire (by decide) (by decide) (by decide) (ks := [exElectrumKey 5000000000])
    (by
      intro k hk
      rw [List.mem_singleton] at hk
      subst hk
      have := exElectrumKey_means (a := 5000000000) (by decide)
      exact ⟨this.ok, this.good⟩) rfl rest (by simp [exElectrumKey]) (by simp [exElectrumKey]) (by simp [exElectrumKey, exPsbtTx])
  refine ⟨e, f, e1, e2, ?_⟩
  simp [exElectrumKey, exPsbtTx] at e3
  omega

/-- A transaction with six inputs. -/
def exSix : Transaction := { exPsbtTx with ins := exPsbtTx.ins.flatMap (List.replicate 6) }

theorem exSix_wire : WireTx exSix := by
  have h := exPsbtTx_wire
  refine ⟨h.version, h.locktime, ?_, h.outs, ?_⟩
  · intro i hi
    obtain ⟨j, hj, e⟩ := List.mem_flatMap.mp hi
    rw [(List.mem_replicate.mp e).2]
    exact h.ins j hj
  · intro i hi
    obtain ⟨j, hj, e⟩ := List.mem_flatMap.mp hi
    rw [(List.mem_replicate.mp e).2]
    exact h.items j hj

/-- C72_six_inputs: six inputs with 65537 satoshi each; the first one is read as 65536. -/
example (junk rest : Bytes) : ∃ e, ({} : ElectrumTx).fromStream junk 2 (.of (electrumSegwit exSix (List.replicate 6 (exElectrumKey 65537)) ++ rest)) =
      some (e, (electrumSegwit exSix (List.replicate 6 (exElectrumKey 65537))).length, .of rest) ∧ e.status = .done ∧
      ∃ m ms, e.metas = m :: ms ∧ m.amount = some 65536 := by
  have hm := exElectrumKey_means (a := 65537) (by decide)
  obtain ⟨e, e1, e2, -, m, ms, e3, e4, -⟩ := C72_six_inputs junk 0 (e := {}) rfl exSix_wire rfl (by decide) (k := exElectrumKey 65537)
    (ks := List.replicate 5 (exElectrumKey 65537)) (by
      intro k hk
      rw [← List.replicate_succ] at hk
      rw [(List.mem_replicate.mp hk).2]
      exact ⟨hm.ok, hm.good⟩) rfl rfl rest
  exact ⟨e, e1, e2, m, ms, e3, e4⟩

/-- C72_hang: version bytes 0, 0, 0, 0. -/
example (junk rest : Bytes) (fuel : Nat) : ({} : ElectrumTx).fromStream junk fuel (.of (electrumSegwit exPsbtTx [⟨1, zeros 7, zeros 78, 0, 0⟩] ++ rest)) = none :=
  C72_hang junk rfl exPsbtTx_wire (by decide) (by decide) (by decide) ⟨by decide, rfl, rfl, by decide, by decide⟩ (by decide +kernel) rest fuel

/-- C72_parse_legacy, C72_fee_undefined: a document without segwit inputs, the fee of which is not defined. -/
example (junk rest : Bytes) (fuel : Nat) : ∃ e, ({} : ElectrumTx).fromStream junk fuel (.of (electrumLegacy exPsbtTx [(zeros 5, exElectrumKey 0)] ++ rest)) =
      some (e, (electrumLegacy exPsbtTx [(zeros 5, exElectrumKey 0)]).length, .of rest) ∧ e.status = .done ∧ e.fee = .ub := by
  have hm := exElectrumKey_means (a := 0) (by decide)
  obtain ⟨e, e1, e2, -, e4, e5⟩ := C72_parse_legacy junk fuel (e := {}) rfl exPsbtTx_wire (by decide) (by decide) (by decide) (by decide)
    (ks := [(zeros 5, exElectrumKey 0)]) (by
      intro k hk
      rw [List.mem_singleton] at hk
      subst hk
      exact ⟨rfl, hm.ok, hm.good⟩) rfl rest
  refine ⟨e, e1, e2, ?_⟩
  cases hh : e.metas with
  | nil => rw [hh] at e5; cases e5
  | cons m ms =>
    rw [hh] at e5
    cases e5 with
    | cons a b =>
      refine C72_fee_undefined hh a.amount ?_
      intro h0
      have := e4.ins.length_eq
      rw [h0] at this
      cases this

end UB
