import Verif.Props.ElectrumKeys

/-
C72 (continued): segwit documents with the mark of an uncompressed point in an extended key.
-/

namespace UB
open Spec BN

/-- 78 bytes with known version bytes. -/
structure KnownVersion (x : Bytes) : Prop where
  length : x.length = 78
  version : ∃ net ∈ networks, ∃ t, x.take 4 = pubPrefix net t

/-- The public key in an extended key starts with the byte 4. -/
def Marked (x : Bytes) : Prop := x[45]? = some 0x04

instance (x : Bytes) : Decidable (Marked x) := by unfold Marked; infer_instance

namespace ElectrumTx

theorem hd_marked (junk : Bytes) {x : Bytes} (hx : KnownVersion x) (h4 : Marked x) (rest : Bytes) :
    ∃ r : HDPub, ({} : HDPub).fromStream junk (.of (x ++ rest)) = (r, 0, .of (x ++ rest)) ∧ r.key.status = .ub := by
  obtain ⟨g, q, q1, q2, q3, q4⟩ := HDPub.from_all junk {} x rest rfl (by decide) rfl ⟨by decide, by decide, by decide⟩ hx.length hx.version
  have : (({} : HDPub).fromStream junk (.of (x ++ rest))) = (({} : HDPub).fromStream junk { bytes := x ++ rest }) := rfl
  rw [this, q4]
  have hd : ∃ t, x.drop 45 = 0x04 :: t ∧ t.length = 32 := by
    have hl := hx.length
    have h45 : (x.drop 45)[0]? = some 0x04 := by rw [List.getElem?_drop]; exact h4
    have hdl : (x.drop 45).length = 33 := by rw [List.length_drop]; omega
    generalize x.drop 45 = y at h45 hdl
    cases y with
    | nil => simp at hdl
    | cons a t =>
      simp at h45 hdl
      exact ⟨t, by rw [h45], hdl⟩
  obtain ⟨t, ht, hl⟩ := hd
  rw [ht] at q3
  unfold HDPub.last HDPub.finish
  have l0 : load q 0 33 = .ok (0x04 :: t) := by unfold load; rw [if_pos (by omega), List.drop_zero, q3]
  have hu : uncompressPubkey (0x04 :: t) junk = .ub := by
    unfold uncompressPubkey readPubkey
    have he : entry (0x04 :: t) 0 = .ok 0x04 := rfl
    have l1 : load (0x04 :: t) 1 32 = .ok t := by unfold load; rw [if_pos (by simp; omega)]; simp [← hl]
    have l2 : load (0x04 :: t) 33 32 = .ub := by unfold load; rw [if_neg (by simp; omega)]
    rw [he, C.bind_ok, if_pos rfl, l1, C.bind_ok, l2]
    rfl
  dsimp only
  rw [l0, C.bind_ok, hu]
  exact ⟨_, rfl, rfl⟩

theorem hd_unmarked (junk : Bytes) (hj : junk.length = 65) {x : Bytes} (hx : KnownVersion x) (h4 : ¬ Marked x) (rest : Bytes) :
    ∃ r : HDPub, ({} : HDPub).fromStream junk (.of (x ++ rest)) = (r, 78, .of rest) := by
  obtain ⟨g, q, q1, q2, q3, q4⟩ := HDPub.from_all junk {} x rest rfl (by decide) rfl ⟨by decide, by decide, by decide⟩ hx.length hx.version
  have : (({} : HDPub).fromStream junk (.of (x ++ rest))) = (({} : HDPub).fromStream junk { bytes := x ++ rest }) := rfl
  rw [this, q4]
  unfold HDPub.last
  match q, q2, q3 with
  | [], h, _ => simp at h
  | fb :: t, q2, q3 =>
    have hmark : fb ≠ 0x04 := by
      intro hf
      have h45 : (x.drop 45)[0]? = some fb := by rw [← q3]; rfl
      rw [List.getElem?_drop] at h45
      exact h4 (by rw [hf] at h45; exact h45)
    obtain ⟨r, r1, r2⟩ := ECPoint.finish_ok junk hj fb { status := .incomplete, bytesParsed := 0, point := t ++ [0], compressed := true } (by simpa using q2) (fun _ => hmark)
    have e : HDPub.finish junk { status := .incomplete, bytesParsed := 0, point := fb :: t, compressed := true } = .ok r := by
      rw [HDPub.finish_eq junk _ fb t rfl (by simpa using q2) rfl]
      exact r1
    dsimp only
    rw [show ({ ({} : ECPoint) with point := fb :: t, status := .incomplete, bytesParsed := 0 } : ECPoint) = { status := .incomplete, bytesParsed := 0, point := fb :: t, compressed := true } from rfl, e]
    exact ⟨_, rfl⟩

/-- The bytes of the key are taken from the stream, or nothing is and the parse is undefined. -/
theorem readHd_marked (junk : Bytes) (hj : junk.length = 65) {x : Bytes} (hx : KnownVersion x) (limit fuel pos : Nat) (hp : pos < limit) (hl : limit ≤ pos + 78) (rest : Bytes) :
    ∃ (r : HDPub) (n : Nat), readHd junk limit (fuel + 2) {} pos (.of (x ++ rest)) = some (r, pos + n, .of ((x ++ rest).drop n)) ∧ n ≤ 78 ∧ (Marked x → r.key.status = .ub) := by
  have hav : (PStream.of (x ++ rest)).avail = true := by
    have hl := hx.length
    cases x with
    | nil => cases hl
    | cons a b => rfl
  by_cases h4 : Marked x
  · obtain ⟨r, r1, r2⟩ := hd_marked junk hx h4 rest
    refine ⟨r, 0, ?_, by omega, fun _ => r2⟩
    rw [readHd, if_pos ⟨hav, hp, by decide⟩, r1]
    dsimp only
    rw [readHd, if_neg (by rw [r2]; simp)]
    rfl
  · obtain ⟨r, r1⟩ := hd_unmarked junk hj hx h4 rest
    refine ⟨r, 78, ?_, by omega, fun h => absurd h h4⟩
    rw [readHd, if_pos ⟨hav, hp, by decide⟩, r1]
    dsimp only
    rw [readHd, if_neg (by omega), List.drop_left' hx.length]

theorem readMeta_marked (junk : Bytes) (hj : junk.length = 65) {k : ElectrumKey} (hk : k.Ok) (hg : KnownVersion k.xpub) (fuel start j : Nat) (hj5 : j ≤ 5) (rest : Bytes) :
    ∃ m : ElectrumMeta, readMeta junk (fuel + 2) start { derivation := some (0, 0), amount := some 0 } (start + j) (.of ((electrumWitness k).drop j ++ rest)) =
      some (m, start + 102, .of rest) ∧ (Marked k.xpub → m.hd.key.status = .ub) := by
  obtain ⟨r, n, r1, r2, r3⟩ := readHd_marked junk hj hg (start + 98) fuel (start + 20) (by omega) (by omega) ((leBytes 2 k.change ++ leBytes 2 k.index) ++ rest)
  have take_all : ∀ (a b : Bytes) (n : Nat), a.length = n → (PStream.of (a ++ b)).readN n = (a, .of b) := by
    intro a b n h
    rw [PStream.readN_of, List.take_left' h, List.drop_left' h]
  have l1 : ([0xfe, 0xff, 0xff, 0xff, 0xff].drop j : Bytes).length = 5 - j := by simp
  have l2 : (leBytes 8 k.amount).length = 8 := by simp
  have l3 : (k.xpub ++ (leBytes 2 k.change ++ leBytes 2 k.index)).length = 82 := by simp [hk.xpub]
  have l4 : ((k.xpub ++ (leBytes 2 k.change ++ leBytes 2 k.index)).drop n).length = 82 - n := by rw [List.length_drop, l3]
  unfold readMeta
  rw [witness_drop (by omega), show j - 5 = 0 by omega, List.drop_zero, take_all _ _ (start + 5 - (start + j)) (by rw [l1]; omega)]
  dsimp only
  rw [l1, take_all _ _ (start + 13 - (start + j + (5 - j))) (by rw [l2]; omega)]
  dsimp only
  rw [l2, take_all _ _ (start + 20 - (start + j + (5 - j) + 8)) (by rw [hk.encoding]; omega)]
  dsimp only
  rw [hk.encoding, show start + j + (5 - j) + 8 + 7 = start + 20 by omega, r1]
  simp only [Option.bind_eq_bind, Option.bind_some]
  rw [← List.append_assoc k.xpub, List.drop_append_of_le_length (by rw [l3]; omega), take_all _ _ (start + 102 - (start + 20 + n)) (by rw [l4]; omega)]
  dsimp only
  rw [l4, show start + 20 + n + (82 - n) = start + 102 by omega]
  exact ⟨_, rfl, r3⟩

theorem readMetas_marked (junk : Bytes) (hj : junk.length = 65) (fuel : Nat) : ∀ (ks : List ElectrumKey) (start j : Nat) (rest : Bytes),
    (∀ k ∈ ks, k.Ok ∧ KnownVersion k.xpub) → j ≤ 5 → (ks = [] → j = 0) →
    ∃ ms : List ElectrumMeta, readMetas junk (fuel + 2) start (List.replicate ks.length { derivation := some (0, 0), amount := some 0 }) (start + j)
        (.of ((ks.flatMap electrumWitness).drop j ++ rest)) = some (ms, start + 102 * ks.length, .of rest) ∧ ((∃ k ∈ ks, Marked k.xpub) → ∃ m ∈ ms, m.hd.key.status = .ub)
  | [], start, j, rest, _, _, h0 => by
    rw [h0 rfl]
    exact ⟨[], rfl, by simp⟩
  | k :: ks, start, j, rest, hk, hj5, _ => by
    obtain ⟨m, m1, m2⟩ := readMeta_marked junk hj (hk k (by simp)).1 (hk k (by simp)).2 fuel start j hj5 (ks.flatMap electrumWitness ++ rest)
    obtain ⟨ms, n1, n2⟩ := readMetas_marked junk hj fuel ks (start + 102) 0 rest (fun a ha => hk a (by simp [ha])) (by omega) (fun _ => rfl)
    have hw : (electrumWitness k).length = 102 := by
      have := (hk k (by simp)).1
      simp [electrumWitness, this.encoding, this.xpub]
    refine ⟨m :: ms, ?_, ?_⟩
    · rw [List.length_cons, List.replicate_succ, readMetas, List.flatMap_cons, List.drop_append_of_le_length (by omega), List.append_assoc, m1]
      simp only [Option.bind_eq_bind, Option.bind_some]
      rw [List.drop_zero, Nat.add_zero] at n1
      rw [n1]
      simp only [Option.bind_some, Option.pure_def]
      rw [show start + 102 + 102 * ks.length = start + 102 * (ks.length + 1) by omega]
    · rintro ⟨a, ha, h4⟩
      rcases List.mem_cons.mp ha with rfl | ha
      · exact ⟨m, by simp, m2 h4⟩
      · obtain ⟨m', h1, h2⟩ := n2 ⟨a, ha, h4⟩
        exact ⟨m', by simp [h1], h2⟩

end ElectrumTx

open ElectrumTx in
/-- C72, code and claim disagree: a segwit document for one to five inputs in which a public key, of any of the inputs, starts with the byte 4 makes `from_stream` read
behind an array of 33 bytes. -/
theorem C72_mark_undefined (junk : Bytes) (hj : junk.length = 65) (fuel : Nat) {e : ElectrumTx} (he : e.status = .done) {x : Transaction}
    (h : WireTx x) (h1 : 1 ≤ x.ins.length) (h5 : x.ins.length ≤ 5) (ho : x.outs.length < 253) {ks : List ElectrumKey} (hk : ∀ k ∈ ks, k.Ok ∧ KnownVersion k.xpub)
    (hl : ks.length = x.ins.length) (h4 : ∃ k ∈ ks, Marked k.xpub) (rest : Bytes) :
    ∃ (e' : ElectrumTx) (n : Nat) (s : PStream), e.fromStream junk (fuel + 2) (.of (electrumSegwit x ks ++ rest)) = some (e', n, s) ∧ e'.status = .ub := by
  have h0 : ks = [] → x.ins.length = 0 := by rintro rfl; exact hl.symm
  have hW : Refused x.ins.length x.ins.length (ks.flatMap electrumWitness ++ (leBytes 4 x.locktime ++ rest)) := by
    cases ks with
    | nil => simp at hl; omega
    | cons k ks =>
      rw [List.flatMap_cons, List.append_assoc]
      exact refused_five k _ (by omega) h5
  obtain ⟨e1, off, f1, f2, f3, f4, f5, f6, f7, f8, f9, f10⟩ := fromStream_segwit junk (fuel + 2) he h (by omega) ho hW
  have hdoc : electrumSegwit x ks ++ rest = electrumMagic ++ (leBytes 4 x.version ++ ([0x00, 0x01] ++ (compactSize x.ins.length ++ (x.ins.flatMap inBytes ++
        (compactSize x.outs.length ++ (x.outs.flatMap outBytes ++ (ks.flatMap electrumWitness ++ (leBytes 4 x.locktime ++ rest)))))))) := by
    unfold electrumSegwit
    simp only [List.append_assoc]
  have hfl : (ks.flatMap electrumWitness).length = 102 * ks.length := by
    clear hW h0 hl f1 hdoc h4
    induction ks with
    | nil => rfl
    | cons k ks ih =>
      have := (hk k (by simp)).1
      rw [List.flatMap_cons, List.length_append, ih (fun a ha => hk a (by simp [ha])) , List.length_cons]
      simp [electrumWitness, this.encoding, this.xpub]
      omega
  have hdrop : (ks.flatMap electrumWitness ++ (leBytes 4 x.locktime ++ rest)).drop x.ins.length = (ks.flatMap electrumWitness).drop x.ins.length ++ (leBytes 4 x.locktime ++ rest) := by
    apply List.drop_append_of_le_length
    rw [hfl]
    omega
  obtain ⟨ms, m1, m2⟩ := readMetas_marked junk hj fuel ks off x.ins.length (leBytes 4 x.locktime ++ rest) hk h5 h0
  rw [hdoc, f1, hdrop]
  unfold readSegwit
  rw [if_pos ⟨f4, f5⟩]
  dsimp only
  rw [f9, f8, f3, Nat.zero_add]
  rw [hl] at m1
  rw [m1]
  simp only [Option.bind_eq_bind, Option.bind_some]
  obtain ⟨m, hm, hs⟩ := m2 h4
  rw [if_pos (List.any_eq_true.mpr ⟨m, hm, by simp [hs]⟩)]
  exact ⟨_, _, _, rfl, rfl⟩

/-- C72_mark_undefined: the version bytes of `zpub`, and a key that starts with 4. -/
example (rest : Bytes) : ∃ (e : ElectrumTx) (n : Nat) (s : PStream),
    ({} : ElectrumTx).fromStream (List.replicate 65 0xff) 2 (.of (electrumSegwit exPsbtTx [⟨5000, zeros 7, mainnet.zpub ++ (zeros 41 ++ 0x04 :: zeros 32), 0, 7⟩] ++ rest)) =
      some (e, n, s) ∧ e.status = .ub :=
  C72_mark_undefined (List.replicate 65 0xff) rfl 0 rfl exPsbtTx_wire (by decide) (by decide) (by decide) (by
    intro k hk
    rw [List.mem_singleton] at hk
    subst hk
    exact ⟨⟨by decide, rfl, rfl, by decide, by decide⟩, rfl, ⟨mainnet, by decide, .p2wpkh, rfl⟩⟩) rfl ⟨_, List.mem_singleton.mpr rfl, by decide⟩ rest

end UB
