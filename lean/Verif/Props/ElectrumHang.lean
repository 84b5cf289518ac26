import Verif.Props.ElectrumMark

/-
C72 (continued): unknown version bytes in the extended key of any input.
-/

namespace UB
open Spec BN

namespace ElectrumTx

theorem readMeta_hang (junk : Bytes) {k : ElectrumKey} (hk : k.Ok) (hf : findPrefix pubPrefixes (k.xpub.take 4) networks = none) (fuel start j : Nat) (hj5 : j ≤ 5) (rest : Bytes) :
    readMeta junk fuel start { derivation := some (0, 0), amount := some 0 } (start + j) (.of ((electrumWitness k).drop j ++ rest)) = none := by
  obtain ⟨r, r1, r2⟩ := hd_unknown junk (v := k.xpub.take 4) (by have := hk.xpub; simp; omega) hf
    (k.xpub.drop 4 ++ ((leBytes 2 k.change ++ leBytes 2 k.index) ++ rest))
  rw [← List.append_assoc, List.take_append_drop] at r1
  have hav : ∀ (a b : Bytes), a ≠ [] → (PStream.of (a ++ b)).avail = true := by
    intro a b hab
    cases a with
    | nil => exact absurd rfl hab
    | cons c a => rfl
  have hx0 : k.xpub ≠ [] := fun hh => by have := hk.xpub; rw [hh] at this; cases this
  have hx4 : k.xpub.drop 4 ≠ [] := fun hh => by
    have := hk.xpub
    have h2 := congrArg List.length hh
    rw [List.length_drop, this] at h2
    cases h2
  have hloop : readHd junk (start + 98) fuel {} (start + 20) (.of (k.xpub ++ ((leBytes 2 k.change ++ leBytes 2 k.index) ++ rest))) = none := by
    cases fuel with
    | zero => rfl
    | succ fuel =>
      rw [readHd, if_pos ⟨hav _ _ hx0, by omega, by decide⟩, r1]
      exact readHd_stuck junk _ r2 (by omega) (hav _ _ hx4) fuel
  have take_all : ∀ (a b : Bytes) (n : Nat), a.length = n → (PStream.of (a ++ b)).readN n = (a, .of b) := by
    intro a b n h
    rw [PStream.readN_of, List.take_left' h, List.drop_left' h]
  have l1 : ([0xfe, 0xff, 0xff, 0xff, 0xff].drop j : Bytes).length = 5 - j := by simp
  have l2 : (leBytes 8 k.amount).length = 8 := by simp
  unfold readMeta
  rw [witness_drop (by omega), show j - 5 = 0 by omega, List.drop_zero, take_all _ _ (start + 5 - (start + j)) (by rw [l1]; omega)]
  dsimp only
  rw [l1, take_all _ _ (start + 13 - (start + j + (5 - j))) (by rw [l2]; omega)]
  dsimp only
  rw [l2, take_all _ _ (start + 20 - (start + j + (5 - j) + 8)) (by rw [hk.encoding]; omega)]
  dsimp only
  rw [hk.encoding, show start + j + (5 - j) + 8 + 7 = start + 20 by omega, hloop]
  rfl

theorem readMetas_hang (junk : Bytes) (hj : junk.length = 65) {k : ElectrumKey} (hk : k.Ok) (hf : findPrefix pubPrefixes (k.xpub.take 4) networks = none) (fuel : Nat)
    (ks2 : List ElectrumKey) : ∀ (ks1 : List ElectrumKey) (start j : Nat) (rest : Bytes), (∀ k ∈ ks1, k.Ok ∧ KnownVersion k.xpub) → j ≤ 5 →
    readMetas junk (fuel + 2) start (List.replicate (ks1 ++ k :: ks2).length { derivation := some (0, 0), amount := some 0 }) (start + j)
        (.of (((ks1 ++ k :: ks2).flatMap electrumWitness).drop j ++ rest)) = none
  | [], start, j, rest, _, hj5 => by
    have hw : (electrumWitness k).length = 102 := by simp [electrumWitness, hk.encoding, hk.xpub]
    rw [List.nil_append, List.length_cons, List.replicate_succ, readMetas, List.flatMap_cons, List.drop_append_of_le_length (by omega), List.append_assoc,
      readMeta_hang junk hk hf (fuel + 2) start j hj5]
    rfl
  | a :: ks1, start, j, rest, h1, hj5 => by
    obtain ⟨m, m1, -⟩ := readMeta_marked junk hj (h1 a (by simp)).1 (h1 a (by simp)).2 fuel start j hj5 ((ks1 ++ k :: ks2).flatMap electrumWitness ++ rest)
    have n1 := readMetas_hang junk hj hk hf fuel ks2 ks1 (start + 102) 0 rest (fun b hb => h1 b (by simp [hb])) (by omega)
    have hw : (electrumWitness a).length = 102 := by
      have := (h1 a (by simp)).1
      simp [electrumWitness, this.encoding, this.xpub]
    rw [List.cons_append, List.length_cons, List.replicate_succ, readMetas, List.flatMap_cons, List.drop_append_of_le_length (by omega), List.append_assoc, m1]
    simp only [Option.bind_eq_bind, Option.bind_some]
    rw [List.drop_zero, Nat.add_zero] at n1
    rw [n1]
    rfl

end ElectrumTx

open ElectrumTx in
/-- C72, code and claim disagree: `from_stream` does not come back from a segwit document for one to five inputs if the extended key of any input has unknown version bytes
and those before it have known ones and no mark of uncompressed points: no number of rounds of the loop is enough. -/
theorem C72_hang_any (junk : Bytes) (hj : junk.length = 65) {e : ElectrumTx} (he : e.status = .done) {x : Transaction} (h : WireTx x) (h1 : 1 ≤ x.ins.length)
    (h5 : x.ins.length ≤ 5) (ho : x.outs.length < 253) {ks1 ks2 : List ElectrumKey} {k : ElectrumKey} (hs1 : ∀ k ∈ ks1, k.Ok ∧ KeyShaped k.xpub) (hk : k.Ok)
    (hf : findPrefix pubPrefixes (k.xpub.take 4) networks = none) (hk2 : ∀ k ∈ ks2, k.Ok) (hl : (ks1 ++ k :: ks2).length = x.ins.length) (rest : Bytes) (fuel : Nat) :
    e.fromStream junk (fuel + 2) (.of (electrumSegwit x (ks1 ++ k :: ks2) ++ rest)) = none := by
  have hk1 : ∀ k ∈ ks1, k.Ok ∧ KnownVersion k.xpub := fun a ha => ⟨(hs1 a ha).1, (hs1 a ha).2.length, (hs1 a ha).2.version⟩
  have hkk : ∀ a ∈ ks1 ++ k :: ks2, a.Ok := by
    intro a ha
    rcases List.mem_append.mp ha with ha | ha
    · exact (hk1 a ha).1
    · rcases List.mem_cons.mp ha with rfl | ha
      · exact hk
      · exact hk2 a ha
  have hm := readMetas_hang junk hj hk hf fuel ks2 ks1
  generalize ks1 ++ k :: ks2 = ks at hkk hm hl
  have hW : Refused x.ins.length x.ins.length (ks.flatMap electrumWitness ++ (leBytes 4 x.locktime ++ rest)) := by
    cases ks with
    | nil => simp at hl; omega
    | cons k ks =>
      rw [List.flatMap_cons, List.append_assoc]
      exact refused_five k _ (by omega) h5
  obtain ⟨e1, off, f1, f2, f3, f4, f5, f6, f7, f8, f9, f10⟩ := fromStream_segwit junk (fuel + 2) he h (by omega) ho hW
  have hdoc : electrumSegwit x ks ++ rest = electrumMagic ++ (leBytes 4 x.version ++ ([0x00, 0x01] ++ (compactSize x.ins.length ++ (x.ins.flatMap inBytes ++
        (compactSize x.outs.length ++ (x.outs.flatMap outBytes ++ (ks.flatMap electrumWitness ++ (leBytes 4 x.locktime ++ rest)))))))) := by
    unfold electrumSegwit
    simp only [List.append_assoc]
  have hfl : (ks.flatMap electrumWitness).length = 102 * ks.length := by
    clear hW hl f1 hdoc hm
    induction ks with
    | nil => rfl
    | cons k ks ih =>
      have := hkk k (by simp)
      rw [List.flatMap_cons, List.length_append, ih (fun a ha => hkk a (by simp [ha])) , List.length_cons]
      simp [electrumWitness, this.encoding, this.xpub]
      omega
  have hdrop : (ks.flatMap electrumWitness ++ (leBytes 4 x.locktime ++ rest)).drop x.ins.length = (ks.flatMap electrumWitness).drop x.ins.length ++ (leBytes 4 x.locktime ++ rest) := by
    apply List.drop_append_of_le_length
    rw [hfl]
    omega
  have m1 := hm off x.ins.length (leBytes 4 x.locktime ++ rest) hk1 h5
  rw [hdoc, f1, hdrop]
  unfold readSegwit
  rw [if_pos ⟨f4, f5⟩]
  dsimp only
  rw [f9, f8, f3, Nat.zero_add]
  rw [hl] at m1
  rw [m1]
  rfl

/-- A transaction with two inputs. -/
def exTwoIns : Transaction := ⟨2, [⟨zeros 32, 0, [], 0xfffffffe, []⟩, ⟨zeros 32, 1, [], 0xfffffffe, []⟩], [⟨1000, [0x51]⟩], 0⟩

theorem exTwoIns_wire : WireTx exTwoIns := by
  refine ⟨by decide, by decide, ?_, ?_, ?_⟩
  · intro i hi
    rcases List.mem_cons.mp hi with rfl | hi
    · exact ⟨by decide, by decide, by decide, by decide⟩
    · rw [List.mem_singleton] at hi
      subst hi
      exact ⟨by decide, by decide, by decide, by decide⟩
  · intro o ho
    rw [exTwoIns, List.mem_singleton] at ho
    subst ho
    exact ⟨by decide, by decide⟩
  · intro i hi
    rcases List.mem_cons.mp hi with rfl | hi
    · simp
    · rw [List.mem_singleton] at hi
      subst hi
      simp

/-- C72_hang_any: the second of two keys has the version bytes 0, 0, 0, 0. -/
example (rest : Bytes) (fuel : Nat) : ({} : ElectrumTx).fromStream (List.replicate 65 0xff) (fuel + 2)
    (.of (electrumSegwit exTwoIns ([⟨1, zeros 7, mainnet.zpub ++ zeros 74, 0, 0⟩] ++ ⟨1, zeros 7, zeros 78, 0, 0⟩ :: []) ++ rest)) = none :=
  C72_hang_any _ rfl rfl exTwoIns_wire (by decide) (by decide) (by decide) (by
    intro k hk
    rw [List.mem_singleton] at hk
    subst hk
    exact ⟨⟨by decide, rfl, rfl, by decide, by decide⟩, rfl, ⟨mainnet, by decide, .p2wpkh, rfl⟩, by decide⟩) ⟨by decide, rfl, rfl, by decide, by decide⟩ (by decide +kernel) (by simp) rfl rest fuel

end UB
