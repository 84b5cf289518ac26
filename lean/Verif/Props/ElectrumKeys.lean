import Verif.Props.Electrum
import Verif.Lemmas.PSBTSafe

/-
C72 (continued): segwit documents in which an extended key is no key.
-/

namespace UB
open Spec BN

/-- 78 bytes with known version bytes and not 0x04 (the mark of uncompressed points) where the public key starts; whether that is a point is left open. -/
structure KeyShaped (x : Bytes) : Prop where
  length : x.length = 78
  version : ∃ net ∈ networks, ∃ t, x.take 4 = pubPrefix net t
  mark : x[45]? ≠ some 0x04

/-- The public key in an extended key is a point. -/
def HasPoint (x : Bytes) : Prop := ∃ P : Pt, P ≠ 0 ∧ x.drop 45 = secOf true P

namespace ElectrumTx

/-- What has been read as extended key. -/
def GotKey (x : Bytes) (hd : HDPub) : Prop := hd.key.status ≠ .ub ∧ (hd.key.status = .done → HasPoint x)

theorem hd_any (junk : Bytes) (hj : junk.length = 65) (hn : ECPoint.NoPoint ((junk.drop 1).take 32)) {x : Bytes} (hx : KeyShaped x) (rest : Bytes) :
    ∃ r : HDPub, ({} : HDPub).fromStream junk (.of (x ++ rest)) = (r, 78, .of rest) ∧ GotKey x r := by
  obtain ⟨g, q, q1, q2, q3, q4⟩ := HDPub.from_all junk {} x rest rfl (by decide) rfl ⟨by decide, by decide, by decide⟩ hx.length hx.version
  have : (({} : HDPub).fromStream junk (.of (x ++ rest))) = (({} : HDPub).fromStream junk { bytes := x ++ rest }) := rfl
  rw [this, q4]
  unfold HDPub.last
  match q, q2, q3 with
  | [], h, _ => simp at h
  | fb :: t, q2, q3 =>
    have hmark : fb ≠ 0x04 := by
      intro hf
      have h45 : (x.drop 45)[0]? = some fb := by rw [← q3]; rfl
      rw [List.getElem?_drop] at h45
      exact hx.mark (by rw [← hf]; exact h45)
    obtain ⟨r, r1, r2⟩ := ECPoint.finish_ok junk hj fb { status := .incomplete, bytesParsed := 0, point := t ++ [0], compressed := true } (by simpa using q2) (fun _ => hmark)
    have e : HDPub.finish junk { status := .incomplete, bytesParsed := 0, point := fb :: t, compressed := true } = .ok r := by
      rw [HDPub.finish_eq junk _ fb t rfl (by simpa using q2) rfl]
      exact r1
    dsimp only
    rw [show ({ ({} : ECPoint) with point := fb :: t, status := .incomplete, bytesParsed := 0 } : ECPoint) = { status := .incomplete, bytesParsed := 0, point := fb :: t, compressed := true } from rfl, e]
    refine ⟨_, rfl, r2, ?_⟩
    intro hd
    obtain ⟨P, h0, hP⟩ := HDPub.finish_accepts (p := { status := .incomplete, bytesParsed := 0, point := fb :: t, compressed := true }) q2 rfl hn e hd
    exact ⟨P, h0, by rw [← q3]; exact hP⟩

theorem readHd_any (junk : Bytes) (hj : junk.length = 65) (hn : ECPoint.NoPoint ((junk.drop 1).take 32)) {x : Bytes} (hx : KeyShaped x) (limit fuel pos : Nat) (hp : pos < limit)
    (hl : limit ≤ pos + 78) (rest : Bytes) : ∃ r : HDPub, readHd junk limit (fuel + 2) {} pos (.of (x ++ rest)) = some (r, pos + 78, .of rest) ∧ GotKey x r := by
  obtain ⟨r, r1, r2⟩ := hd_any junk hj hn hx rest
  refine ⟨r, ?_, r2⟩
  have hav : (PStream.of (x ++ rest)).avail = true := by
    have hl := hx.length
    cases x with
    | nil => cases hl
    | cons a b => rfl
  rw [readHd, if_pos ⟨hav, hp, by decide⟩, r1]
  dsimp only
  rw [readHd, if_neg (by omega)]

/-- The metadata of an input: amount and derivation of the document, whatever became of the key. -/
structure Told (m : ElectrumMeta) (k : ElectrumKey) : Prop where
  amount : m.amount = some (UInt64.ofNat k.amount)
  derivation : m.derivation = some (UInt16.ofNat k.change, UInt16.ofNat k.index)
  key : GotKey k.xpub m.hd

theorem readMeta_any (junk : Bytes) (hj : junk.length = 65) (hn : ECPoint.NoPoint ((junk.drop 1).take 32)) {k : ElectrumKey} (hk : k.Ok) (hg : KeyShaped k.xpub) (fuel start j : Nat)
    (hj5 : j ≤ 5) (rest : Bytes) :
    ∃ m : ElectrumMeta, readMeta junk (fuel + 2) start { derivation := some (0, 0), amount := some 0 } (start + j) (.of ((electrumWitness k).drop j ++ rest)) =
      some (m, start + 102, .of rest) ∧ Told m k := by
  obtain ⟨r, r1, r2⟩ := readHd_any junk hj hn hg (start + 98) fuel (start + 20) (by omega) (by omega) ((leBytes 2 k.change ++ leBytes 2 k.index) ++ rest)
  have take_all : ∀ (a b : Bytes) (n : Nat), a.length = n → (PStream.of (a ++ b)).readN n = (a, .of b) := by
    intro a b n h
    rw [PStream.readN_of, List.take_left' h, List.drop_left' h]
  have l1 : ([0xfe, 0xff, 0xff, 0xff, 0xff].drop j : Bytes).length = 5 - j := by simp
  have l2 : (leBytes 8 k.amount).length = 8 := by simp
  unfold readMeta
  rw [witness_drop (by omega), show j - 5 = 0 by omega, List.drop_zero, take_all _ _ (start + 5 - (start + j)) (by rw [l1]; omega)]
  dsimp only
  rw [l1, take_all _ _ (start + 13 - (start + j + (5 - j))) (by rw [l2]; omega)]
  dsimp only
  rw [l2, take_all _ _ (start + 20 - (start + j + (5 - j) + 8)) (by rw [hk.encoding]; omega)]
  dsimp only
  rw [hk.encoding, show start + j + (5 - j) + 8 + 7 = start + 20 by omega, r1]
  simp only [Option.bind_eq_bind, Option.bind_some]
  rw [take_all _ _ (start + 102 - (start + 20 + 78)) (by simp)]
  refine ⟨_, rfl, ?_, ?_, r2⟩
  · have ha := hk.amount
    have hv : leValue (leBytes 8 k.amount) = k.amount := by rw [leValue_leBytes, Nat.mod_eq_of_lt (show k.amount < 256 ^ 8 from ha)]
    have := addAmount_spec (leBytes 8 k.amount) 0 0 (by rw [hv]; omega)
    rw [hv, Nat.zero_add, pow_zero, Nat.mul_one] at this
    show some (addAmount 0 (start + j + (5 - j) - (start + 5)) _) = _
    rw [show start + j + (5 - j) - (start + 5) = 0 by omega, ← this]
    rfl
  · show some (addDerivation (0, 0) (start + 20 + 78 - (start + 98)) _) = _
    rw [show start + 20 + 78 - (start + 98) = 0 by omega, addDerivation_spec _ _ hk.change hk.index]

theorem readMetas_any (junk : Bytes) (hj : junk.length = 65) (hn : ECPoint.NoPoint ((junk.drop 1).take 32)) (fuel : Nat) : ∀ (ks : List ElectrumKey) (start j : Nat) (rest : Bytes),
    (∀ k ∈ ks, k.Ok ∧ KeyShaped k.xpub) → j ≤ 5 → (ks = [] → j = 0) →
    ∃ ms : List ElectrumMeta, readMetas junk (fuel + 2) start (List.replicate ks.length { derivation := some (0, 0), amount := some 0 }) (start + j)
        (.of ((ks.flatMap electrumWitness).drop j ++ rest)) = some (ms, start + 102 * ks.length, .of rest) ∧ List.Forall₂ Told ms ks
  | [], start, j, rest, _, _, h0 => by
    rw [h0 rfl]
    exact ⟨[], rfl, .nil⟩
  | k :: ks, start, j, rest, hk, hj5, _ => by
    obtain ⟨m, m1, m2⟩ := readMeta_any junk hj hn (hk k (by simp)).1 (hk k (by simp)).2 fuel start j hj5 (ks.flatMap electrumWitness ++ rest)
    obtain ⟨ms, n1, n2⟩ := readMetas_any junk hj hn fuel ks (start + 102) 0 rest (fun a ha => hk a (by simp [ha])) (by omega) (fun _ => rfl)
    have hw : (electrumWitness k).length = 102 := by
      have := (hk k (by simp)).1
      simp [electrumWitness, this.encoding, this.xpub]
    refine ⟨m :: ms, ?_, .cons m2 n2⟩
    rw [List.length_cons, List.replicate_succ, readMetas, List.flatMap_cons, List.drop_append_of_le_length (by omega), List.append_assoc, m1]
    simp only [Option.bind_eq_bind, Option.bind_some]
    rw [List.drop_zero, Nat.add_zero] at n1
    rw [n1]
    simp only [Option.bind_some, Option.pure_def]
    rw [show start + 102 + 102 * ks.length = start + 102 * (ks.length + 1) by omega]

end ElectrumTx

open ElectrumTx in
/-- C72: a segwit document for one to five inputs is DONE with its transaction, amounts and derivations whatever the public keys in it are, as long as the version
bytes are known: `from_stream` does not look at the result of parsing the keys.  A key that is no point is marked as failed in the metadata only. -/
theorem C72_any_keys (junk : Bytes) (hj : junk.length = 65) (hn : ECPoint.NoPoint ((junk.drop 1).take 32)) (fuel : Nat) {e : ElectrumTx} (he : e.status = .done) {x : Transaction}
    (h : WireTx x) (h1 : 1 ≤ x.ins.length) (h5 : x.ins.length ≤ 5) (ho : x.outs.length < 253) {ks : List ElectrumKey} (hk : ∀ k ∈ ks, k.Ok ∧ KeyShaped k.xpub)
    (hl : ks.length = x.ins.length) (rest : Bytes) :
    ∃ e' : ElectrumTx, e.fromStream junk (fuel + 2) (.of (electrumSegwit x ks ++ rest)) = some (e', (electrumSegwit x ks).length, .of rest) ∧ e'.status = .done ∧
      e'.isSegwit = true ∧ e'.tx.Holds x.bare ∧ List.Forall₂ (fun m k => m.amount = some (UInt64.ofNat k.amount) ∧
        m.derivation = some (UInt16.ofNat k.change, UInt16.ofNat k.index) ∧ (¬ HasPoint k.xpub → m.hd.key.status ≠ .done)) e'.metas ks := by
  have h0 : ks = [] → x.ins.length = 0 := by rintro rfl; exact hl.symm
  have hW : Refused x.ins.length x.ins.length (ks.flatMap electrumWitness ++ (leBytes 4 x.locktime ++ rest)) := by
    cases ks with
    | nil => simp at hl; omega
    | cons k ks =>
      rw [List.flatMap_cons, List.append_assoc]
      exact refused_five k _ (by omega) h5
  obtain ⟨e1, off, f1, f2, f3, f4, f5, f6, f7, f8, f9, f10⟩ := fromStream_segwit junk (fuel + 2) he h (by omega) ho hW
  have hdoc : electrumSegwit x ks ++ rest = electrumMagic ++ (leBytes 4 x.version ++ ([0x00, 0x01] ++ (compactSize x.ins.length ++ (x.ins.flatMap inBytes ++
        (compactSize x.outs.length ++ (x.outs.flatMap outBytes ++ (ks.flatMap electrumWitness ++ (leBytes 4 x.locktime ++ rest)))))))) := by
    unfold electrumSegwit
    simp only [List.append_assoc]
  have hfl : (ks.flatMap electrumWitness).length = 102 * ks.length := by
    clear hW h0 hl f1 hdoc
    induction ks with
    | nil => rfl
    | cons k ks ih =>
      have := (hk k (by simp)).1
      rw [List.flatMap_cons, List.length_append, ih (fun a ha => hk a (by simp [ha])) , List.length_cons]
      simp [electrumWitness, this.encoding, this.xpub]
      omega
  have hlen : (electrumSegwit x ks).length = off + 102 * ks.length + 4 := by
    rw [f10]
    unfold electrumSegwit
    rw [compactSize_small (by omega), compactSize_small ho]
    simp only [List.length_append, length_leBytes, List.length_cons, List.length_nil, hfl, electrumMagic]
    omega
  have hdrop : (ks.flatMap electrumWitness ++ (leBytes 4 x.locktime ++ rest)).drop x.ins.length = (ks.flatMap electrumWitness).drop x.ins.length ++ (leBytes 4 x.locktime ++ rest) := by
    apply List.drop_append_of_le_length
    rw [hfl]
    omega
  obtain ⟨ms, m1, m2⟩ := readMetas_any junk hj hn fuel ks off x.ins.length (leBytes 4 x.locktime ++ rest) hk h5 h0
  rw [hdoc, f1, hdrop]
  unfold readSegwit
  rw [if_pos ⟨f4, f5⟩]
  dsimp only
  rw [f9, f8, f3, Nat.zero_add]
  rw [hl] at m1
  rw [m1]
  simp only [Option.bind_eq_bind, Option.bind_some, List.length_replicate]
  have hlk : (PStream.of (leBytes 4 x.locktime ++ rest)).readN (off + 102 * x.ins.length + 4 - (off + 102 * x.ins.length)) = (leBytes 4 x.locktime, .of rest) := by
    rw [PStream.readN_of, List.take_left' (by simp), List.drop_left' (by simp)]
  rw [hlk]
  dsimp only
  rw [length_leBytes, if_neg ?_, if_pos rfl]
  · rw [hlen, hl]
    unfold stop
    dsimp only
    rw [Nat.sub_zero, Option.pure_def]
    refine ⟨_, rfl, rfl, f4, ⟨f7.version, f7.ins, f7.outs, ?_⟩, ?_⟩
    · have := accLE_spec (leBytes 4 x.locktime) [] 0 rfl (by simp)
      rw [List.length_nil, List.nil_append, leValue_leBytes, Nat.mod_eq_of_lt (show x.locktime < 256 ^ 4 from h.locktime)] at this
      dsimp only
      rw [f6, Nat.sub_self]
      exact this
    · exact m2.imp fun m k hm => ⟨hm.amount, hm.derivation, fun hp hd => hp (hm.key.2 hd)⟩
  · intro hu
    obtain ⟨m, hm, hs⟩ := List.any_eq_true.mp hu
    have : ∀ {ms : List ElectrumMeta} {ks : List ElectrumKey}, List.Forall₂ Told ms ks → ∀ m ∈ ms, m.hd.key.status ≠ .ub := by
      intro ms ks h
      induction h with
      | nil => simp
      | cons a b ih =>
        intro m hm
        rcases List.mem_cons.mp hm with rfl | hm
        · exact a.key.1
        · exact ih m hm
    exact this m2 m hm (by simpa using hs)

/-- C72_any_keys: the version bytes of `zpub`, and zeros instead of a key. -/
example (rest : Bytes) : ∃ e m, ({} : ElectrumTx).fromStream (List.replicate 65 0xff) 2 (.of (electrumSegwit exPsbtTx [⟨5000, zeros 7, mainnet.zpub ++ zeros 74, 0, 7⟩] ++ rest)) =
      some (e, (electrumSegwit exPsbtTx [⟨5000, zeros 7, mainnet.zpub ++ zeros 74, 0, 7⟩]).length, .of rest) ∧ e.status = .done ∧ e.metas = [m] ∧ m.amount = some 5000 ∧
      m.hd.key.status ≠ .done := by
  obtain ⟨e, e1, e2, -, -, e3⟩ := C72_any_keys (List.replicate 65 0xff) rfl (by apply ECPoint.noPoint_of_large; unfold secpP; decide +kernel) 0 (e := {}) rfl exPsbtTx_wire (by decide)
    (by decide) (by decide) (ks := [⟨5000, zeros 7, mainnet.zpub ++ zeros 74, 0, 7⟩]) (by
      intro k hk
      rw [List.mem_singleton] at hk
      subst hk
      exact ⟨⟨by decide, rfl, rfl, by decide, by decide⟩, rfl, ⟨mainnet, by decide, .p2wpkh, rfl⟩, by decide⟩) rfl rest
  cases hm : e.metas with
  | nil => rw [hm] at e3; cases e3
  | cons m ms =>
    rw [hm] at e3
    obtain ⟨⟨a1, -, a2⟩, e4⟩ := List.forall₂_cons.mp e3
    cases e4
    refine ⟨e, m, e1, e2, hm, a1, a2 ?_⟩
    rintro ⟨P, h0, h⟩
    have := congrArg List.head? h
    unfold secOf secBytes at this
    rw [if_pos rfl] at this
    split_ifs at this <;> cases this

end UB
