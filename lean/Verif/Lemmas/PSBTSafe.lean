import Verif.Lemmas.PSBTComplete
import Verif.Lemmas.PSBTPieces

/-
When `PSBT::from_stream` executes undefined behaviour: single pairs.
-/

namespace UB
open Spec

/-! ### Public keys -/

theorem readPubkey_ok (b : Bytes) (q : CurvePoint) (h : 65 ≤ b.length ∨ (b.length = 33 ∧ b[0]? ≠ some 0x04)) : ∃ r, readPubkey b q = .ok r := by
  unfold readPubkey
  have h0 : 0 < b.length := by rcases h with h | h <;> omega
  obtain ⟨b0, he⟩ : ∃ x, b[0]? = some x := ⟨b[0], List.getElem?_eq_getElem h0⟩
  have e0 : entry b 0 = .ok b0 := by unfold entry; rw [he]
  have h1 : load b 1 32 = .ok ((b.drop 1).take 32) := by unfold load; rw [if_pos (by rcases h with h | h <;> omega)]
  rw [e0, C.bind_ok]
  split_ifs with c1 c2
  · have hl : 65 ≤ b.length := by
      rcases h with h | ⟨_, h⟩
      · exact h
      · rw [he, c1] at h; exact absurd rfl h
    have h2 : load b 33 32 = .ok ((b.drop 33).take 32) := by unfold load; rw [if_pos (by omega)]
    rw [h1, C.bind_ok, h2, C.bind_ok]
    exact ⟨_, rfl⟩
  · rw [h1, C.bind_ok]
    exact ⟨_, rfl⟩
  · exact ⟨_, rfl⟩

namespace ECPoint

theorem isValid_ok (p : ECPoint) (h : p.point.length = 64) : ∃ b, p.isValid = .ok b := by
  by_cases hs : p.status = .done
  · rw [isValid_bytes p h hs]
    obtain ⟨r, e⟩ := readPubkey_ok (p.bytes ++ zeros (65 - p.length)) CurvePoint.infinity (Or.inl (by
      rw [List.length_append, length_bytes h]; simp [zeros]; omega))
    rw [e]
    exact ⟨_, rfl⟩
  · unfold isValid
    rw [if_pos hs]
    exact ⟨_, rfl⟩

theorem finish_ok (junk : Bytes) (hj : junk.length = 65) (fb : UInt8) (p : ECPoint) (hp : p.point.length = 64) (hf : p.compressed = true → fb ≠ 0x04) :
    ∃ r, finish junk fb p = .ok r ∧ r.status ≠ .ub := by
  have fin : ∀ q : ECPoint, q.point.length = 64 → q.status = .done →
      ∃ r, (q.isValid >>= fun ok => (pure (if ok then q else { q with status := .failed }) : C ECPoint)) = .ok r ∧ r.status ≠ .ub := by
    intro q hq hs
    obtain ⟨b, e⟩ := isValid_ok q hq
    rw [e, C.bind_ok]
    cases b
    · exact ⟨_, rfl, by simp⟩
    · exact ⟨_, rfl, by simp [hs]⟩
  unfold finish
  by_cases hc : p.compressed = true
  · rw [if_pos hc]
    have hx : load p.point 0 32 = .ok (p.point.take 32) := by unfold load; rw [if_pos (by omega), List.drop_zero]
    obtain ⟨r, e⟩ := readPubkey_ok (fb :: p.point.take 32) CurvePoint.infinity (Or.inr ⟨by simp; omega, by simpa using hf hc⟩)
    have hu : ∃ x arr, uncompressPubkey (fb :: p.point.take 32) junk = .ok (x, arr) ∧ arr.length = 65 := by
      unfold uncompressPubkey
      obtain ⟨ok, q⟩ := r
      rw [e, C.bind_ok]
      dsimp only
      cases ok
      · exact ⟨_, _, rfl, hj⟩
      · exact ⟨_, _, rfl, by
          obtain ⟨P, c, -, hP, -⟩ := readPubkey_sound e
          rw [pointBytes_spec hP]
          simp [secBytes, length_beBytes]⟩
    obtain ⟨x, arr, e2, hl⟩ := hu
    have hq : load arr 1 64 = .ok ((arr.drop 1).take 64) := by unfold load; rw [if_pos (by omega)]
    rw [hx, C.bind_ok, e2, C.bind_ok]
    dsimp only
    rw [hq, C.bind_ok, C.pure_eq, C.bind_ok]
    exact fin { p with point := (arr.drop 1).take 64, status := .done } (by simp; omega) rfl
  · rw [if_neg hc, C.pure_eq, C.bind_ok]
    exact fin { p with status := .done } hp rfl

/-- Parsing a public key is always defined. -/
theorem fromSec_defined (junk : Bytes) (hj : junk.length = 65) (arr : Bytes) : (fromSec junk {} arr).1.status ≠ .ub := by
  unfold fromSec
  dsimp only
  match arr with
  | [] =>
    unfold fromStream
    rw [if_neg (by simp)]
    have : (PStream.avail { bytes := [] }) = false := rfl
    simp [this, body, PStream.readN]
  | b :: c =>
    by_cases hb : b < 0x02 ∨ b > 0x04
    · rw [fromStream_start junk 0 b c rfl, if_pos hb]
      simp
    · have hf : b = 0x02 ∨ b = 0x03 ∨ b = 0x04 := by
        have : ∀ b : UInt8, ¬ (b < 0x02 ∨ b > 0x04) → b = 0x02 ∨ b = 0x03 ∨ b = 0x04 := by apply forall_byte; decide +kernel
        exact this b hb
      by_cases hl : c.length < if b = 0x04 then 64 else 32
      · obtain ⟨q, e, hg⟩ := got_first (p := {}) junk 0 b c rfl (by simp [zeros]) hf hl
        rw [e]
        dsimp only
        rw [hg.status]; simp
      · rw [fromStream_start junk 0 b c rfl, if_neg hb]
        generalize hT : (if b = 0x04 then 64 else 32) = T at *
        have hT' : T ≤ 64 := by rw [← hT]; split_ifs <;> omega
        have hct : (c.take T).length = T := by simp; omega
        obtain ⟨q, e, q1, q2⟩ := body_all junk b { ({} : ECPoint) with status := .incomplete, bytesParsed := 0, compressed := b != 0x04 } 1 (c.take T) (c.drop T) (by simp [zeros])
          (by simp) (by simp; omega)
        rw [List.take_append_drop, hct] at e
        dsimp only
        rw [e]
        obtain ⟨r, e2, hr⟩ := finish_ok junk hj b { ({} : ECPoint) with status := .incomplete, bytesParsed := 0, compressed := b != 0x04, point := q } q1 (by simp)
        rw [e2]
        exact hr

end ECPoint

/-! ### Derivations -/

theorem Derivation.load_ub (d : Derivation) (v : Bytes) (hv : v.length < 2 ^ 31) : d.load (varBytes v) = .ub ↔ v.length < 4 := by
  unfold Derivation.load
  dsimp only
  rw [dataPos_eq v hv]
  have hlen : (varBytes v).length = (compactSize v.length).length + v.length := by unfold varBytes; rw [List.length_append]
  have hmis : misread v.length = 0 ∨ (misread v.length = 2 ∧ 252 ≤ v.length) := by unfold misread; split_ifs <;> omega
  by_cases h4 : v.length < 4
  · have : UB.load (varBytes v) ((compactSize v.length).length + misread v.length) 4 = .ub := by
      unfold UB.load; rw [if_neg (by omega)]
    rw [this]
    simp [h4]
  · have : UB.load (varBytes v) ((compactSize v.length).length + misread v.length) 4 =
        .ok (((varBytes v).drop ((compactSize v.length).length + misread v.length)).take 4) := by
      unfold UB.load; rw [if_pos (by omega)]
    rw [this, C.bind_ok, mapM_ok _ (fun i => (littleEndianToInt (((varBytes v).drop ((compactSize v.length).length + misread v.length + 4 * (i + 1))).take 4)).toUInt32)]
    · simp [h4]
    · intro i hi
      rw [List.mem_range] at hi
      have : UB.load (varBytes v) ((compactSize v.length).length + misread v.length + 4 * (i + 1)) 4 =
          .ok (((varBytes v).drop ((compactSize v.length).length + misread v.length + 4 * (i + 1))).take 4) := by
        unfold UB.load; rw [if_pos (by omega)]
      rw [this, C.bind_ok]
      rfl

/-- A key which is a code followed by a public key. -/
def Spec.IsEntry (c : UInt8) (k : Bytes) : Prop := ∃ s, k = c :: s ∧ (s.length = 33 ∨ s.length = 65)

instance (c : UInt8) (k : Bytes) : Decidable (IsEntry c k) :=
  decidable_of_iff (k.head? = some c ∧ (k.length = 34 ∨ k.length = 66)) (by
    unfold IsEntry
    cases k with
    | nil => simp
    | cons b s =>
      constructor
      · rintro ⟨h1, h2⟩; simp at h1 h2; subst h1; exact ⟨s, rfl, by omega⟩
      · rintro ⟨s', h, h2⟩; cases h; simp; omega)

/-- The number of such keys. -/
def Spec.entries (c : UInt8) (qs : List Pair) : Nat := (qs.filter fun q => IsEntry c q.1).length

theorem entries_snoc (c : UInt8) (qs : List Pair) (q : Pair) : entries c (qs ++ [q]) = entries c qs + if IsEntry c q.1 then 1 else 0 := by
  unfold entries
  rw [List.filter_append, List.length_append]
  by_cases h : IsEntry c q.1 <;> simp [h]

theorem varBytes_key {k : Bytes} {n : Nat} (hk : k.length < 2 ^ 31) (h : (varBytes k).length = n) (hn : n = 35 ∨ n = 67) : k.length = n - 1 := by
  unfold varBytes at h
  rw [List.length_append] at h
  unfold compactSize at h
  split_ifs at h <;> simp at h <;> omega

/-- The keys which the code takes for an entry with a public key. -/
theorem entry_of {k : Bytes} {c : UInt8} (hk : k.length < 2 ^ 31) (hc : keyCode k = .ok c) (h : (varBytes k).length = 35 ∨ (varBytes k).length = 67) : IsEntry c k := by
  have hl : k.length = 34 ∨ k.length = 66 := by
    rcases h with h | h
    · exact Or.inl (varBytes_key hk h (Or.inl rfl))
    · exact Or.inr (varBytes_key hk h (Or.inr rfl))
  have hm : misread k.length = 0 := by unfold misread; split_ifs <;> omega
  unfold keyCode peek at hc
  rw [hm] at hc
  cases k with
  | nil => simp at hl
  | cons b s =>
    simp at hc hl
    exact ⟨s, by rw [hc], by omega⟩

theorem entry_length {k : Bytes} {c : UInt8} (h : IsEntry c k) : (varBytes k).length = 35 ∨ (varBytes k).length = 67 := by
  obtain ⟨s, rfl, h⟩ := h
  unfold varBytes
  rw [List.length_append, compactSize_small (by simp; omega)]
  simp; omega

theorem entry_code {k : Bytes} {c b : UInt8} (h : IsEntry c k) (hb : keyCode k = .ok b) : c = b := by
  obtain ⟨s, rfl, h⟩ := h
  rw [keyCode_cons _ _ (misread_small (by simp; omega))] at hb
  cases hb
  rfl

theorem addDerivation_safe {junk : Bytes} (hj : junk.length = 65) {ds : List Derivation} {k v : Bytes} (hk : k.length < 2 ^ 31) (hv : v.length < 2 ^ 31) {c : UInt8}
    (hc : keyCode k = .ok c) :
    (addDerivation junk ds (varBytes k) (varBytes v) = .ub → IsEntry c k ∧ (v.length < 4 ∨ ds.length = 255)) ∧
    ∀ r es, addDerivation junk ds (varBytes k) (varBytes v) = .ok (r, es) → 0 ≤ r → IsEntry c k ∧ es.length = ds.length + 1 := by
  unfold addDerivation
  by_cases h1 : (varBytes k).length ≠ 35 ∧ (varBytes k).length ≠ 67
  · rw [if_pos h1]
    exact ⟨fun h => (by cases h), fun r es h hr => by cases h; omega⟩
  rw [if_neg h1]
  have he : IsEntry c k := entry_of hk hc (by omega)
  by_cases h2 : ds.length = 255
  · rw [if_pos h2]
    exact ⟨fun _ => ⟨he, Or.inr h2⟩, fun r es h => by cases h⟩
  rw [if_neg h2]
  dsimp only
  rw [if_neg (ECPoint.fromSec_defined junk hj _)]
  split_ifs
  · exact ⟨fun h => (by cases h), fun r es h hr => by cases h; omega⟩
  · cases hl : Derivation.load { pubkey := (ECPoint.fromSec junk {} ((varBytes k).drop 2)).1 } (varBytes v) with
    | ub => exact ⟨fun _ => ⟨he, Or.inl ((Derivation.load_ub _ v hv).mp hl)⟩, fun r es h => by cases h⟩
    | ok d => exact ⟨fun h => (by cases h), fun r es h hr => by cases h; exact ⟨he, by simp⟩⟩

/-! ### The metadata of an input -/

/-- A pair of the map of an input, which follows the pairs `qs` in this map, and which may be undefined. -/
def Spec.BadInPair (qs : List Pair) (k v : Bytes) : Prop :=
  (k = [0] ∧ readTx (v.drop (misread v.length)) = .bad ∧ Wide (v.drop (misread v.length))) ∨
  (k = [1] ∧ HugeLen ((v.drop (misread v.length)).drop 8)) ∨
  (IsEntry 2 k ∧ entries 2 qs = 255) ∨
  (IsEntry 6 k ∧ (v.length < 4 ∨ entries 6 qs = 255))

/-- The same for outputs. -/
def Spec.BadOutPair (qs : List Pair) (k v : Bytes) : Prop := IsEntry 2 k ∧ (v.length < 4 ∨ entries 2 qs = 255)

/-- State of the metadata of an input after the pairs `qs`. -/
structure InMeta.Read (m : InMeta) (qs : List Pair) : Prop where
  txOut : m.txOut.Ready
  redeem : m.redeemScript.Ready
  witness : m.witnessScript.Ready
  keys : m.derivations.length = entries 6 qs
  sigs : m.signatures.length = entries 2 qs

structure OutMeta.Read (m : OutMeta) (qs : List Pair) : Prop where
  redeem : m.redeemScript.Ready
  witness : m.witnessScript.Ready
  keys : m.derivations.length = entries 2 qs

theorem InMeta.read_fresh : ({} : InMeta).Read [] := ⟨⟨rfl, rfl⟩, ⟨rfl, rfl⟩, ⟨rfl, rfl⟩, rfl, rfl⟩
theorem OutMeta.read_fresh : ({} : OutMeta).Read [] := ⟨⟨rfl, rfl⟩, ⟨rfl, rfl⟩, rfl⟩

theorem not_entry {k : Bytes} {c b : UInt8} (hb : keyCode k = .ok b) (h : c ≠ b) : ¬ IsEntry c k := fun he => h (entry_code he hb)

theorem entries_other {k v : Bytes} {c b : UInt8} (qs : List Pair) (hb : keyCode k = .ok b) (h : c ≠ b) : entries c (qs ++ [(k, v)]) = entries c qs := by
  rw [entries_snoc, if_neg (not_entry hb h)]; rfl

theorem InMeta.add_safe {junk : Bytes} (hj : junk.length = 65) {m : InMeta} {ti : TxIn} {code : UInt8} {k v : Bytes} {qs : List Pair} (hg : PSBT.GoodPair (k, v))
    (hm : m.Read qs) (hc : keyCode k = .ok code) :
    (m.add junk ti code (varBytes k) (varBytes v) = .ub → BadInPair qs k v) ∧
    ∀ r m', m.add junk ti code (varBytes k) (varBytes v) = .ok (r, m') → 0 ≤ r → m'.Read (qs ++ [(k, v)]) := by
  have hout : ∀ r m', m.add junk ti code (varBytes k) (varBytes v) = .ok (r, m') → 0 ≤ r → m'.txOut.Ready := fun r m' h h0 =>
    (InMeta.add_txOut hg hm.txOut hc h h0).1
  revert hout
  unfold InMeta.add
  by_cases c0 : code = 0
  · subst c0
    have e6 := entries_other (v := v) qs hc (show (6 : UInt8) ≠ 0 by decide)
    have e2 := entries_other (v := v) qs hc (show (2 : UInt8) ≠ 0 by decide)
    rw [if_pos rfl]
    split
    · exact fun _ => ⟨fun h => (by cases h), fun r m' h h0 => by cases h; omega⟩
    rename_i hl
    have hk : k = [0] := key_single hg.2.1 hc (by omega)
    rw [drop_dataPos v hg.2.2]
    dsimp only
    split
    · rename_i hu
      exact fun _ => ⟨fun _ => Or.inl ⟨hk, C81_tx {} rfl _ hu⟩, fun r m' h => by cases h⟩
    split
    · exact fun _ => ⟨fun h => (by cases h), fun r m' h h0 => by cases h; omega⟩
    rename_i hd
    rw [not_not] at hd
    change (({} : Tx).fromStream (.of (v.drop (misread v.length)))).1.status = .done at hd
    obtain ⟨x, h2, hw, hi, ho, h1⟩ := Tx.done_body rfl hd
    have hh := Tx.hash_body _ x h2 (sizes_wire x hw hi ho)
    change (({} : Tx).fromStream { bytes := v.drop (misread v.length) }).1.hash = _ at hh
    rw [hh, C.bind_ok]
    split
    · exact fun _ => ⟨fun h => (by cases h), fun r m' h h0 => by cases h; omega⟩
    split
    · exact fun _ => ⟨fun h => (by cases h), fun r m' h h0 => by cases h; omega⟩
    · intro hout
      refine ⟨fun h => (by cases h), fun r m' h h0 => ?_⟩
      have := hout r m' h h0
      cases h
      exact ⟨this, hm.redeem, hm.witness, by rw [e6]; exact hm.keys, by rw [e2]; exact hm.sigs⟩
  rw [if_neg c0]
  by_cases c1 : code = 1
  · subst c1
    have e6 := entries_other (v := v) qs hc (show (6 : UInt8) ≠ 1 by decide)
    have e2 := entries_other (v := v) qs hc (show (2 : UInt8) ≠ 1 by decide)
    rw [if_pos rfl]
    split
    · exact fun _ => ⟨fun h => (by cases h), fun r m' h h0 => by cases h; omega⟩
    rename_i hl
    have hk : k = [1] := key_single hg.2.1 hc (by omega)
    rw [drop_dataPos v hg.2.2]
    dsimp only
    split
    · rename_i hu
      exact fun _ => ⟨fun _ => Or.inr (Or.inl ⟨hk, (C81_txout m.txOut hm.txOut _).mp hu⟩), fun r m' h => by cases h⟩
    · intro hout
      refine ⟨fun h => (by cases h), fun r m' h h0 => ?_⟩
      have := hout r m' h h0
      cases h
      exact ⟨this, hm.redeem, hm.witness, by rw [e6]; exact hm.keys, by rw [e2]; exact hm.sigs⟩
  rw [if_neg c1]
  by_cases c2 : code = 2
  · subst c2
    have e6 := entries_other (v := v) qs hc (show (6 : UInt8) ≠ 2 by decide)
    rw [if_pos rfl]
    intro _
    split
    · exact ⟨fun h => (by cases h), fun r m' h h0 => by cases h; omega⟩
    rename_i hl
    have he : IsEntry 2 k := entry_of hg.2.1 hc (by omega)
    dsimp only
    rw [if_neg (ECPoint.fromSec_defined junk hj _)]
    split
    · exact ⟨fun h => (by cases h), fun r m' h h0 => by cases h; omega⟩
    have hs : (({} : Sig).fromStream { bytes := (varBytes v).drop 1 }).1.status ≠ .ub := (C33_strict_partial {} ((varBytes v).drop 1) rfl).1
    rw [if_neg hs]
    split
    · exact ⟨fun h => (by cases h), fun r m' h h0 => by cases h; omega⟩
    split
    · rename_i h255
      exact ⟨fun _ => Or.inr (Or.inr (Or.inl ⟨he, by rw [← hm.sigs]; exact h255⟩)), fun r m' h => by cases h⟩
    · refine ⟨fun h => (by cases h), fun r m' h h0 => ?_⟩
      cases h
      exact ⟨hm.txOut, hm.redeem, hm.witness, by rw [e6]; exact hm.keys, by rw [entries_snoc, if_pos he]; simp [hm.sigs]⟩
  rw [if_neg c2]
  by_cases c4 : code = 4
  · subst c4
    have e6 := entries_other (v := v) qs hc (show (6 : UInt8) ≠ 4 by decide)
    have e2 := entries_other (v := v) qs hc (show (2 : UInt8) ≠ 4 by decide)
    rw [if_pos rfl]
    intro _
    split
    · exact ⟨fun h => (by cases h), fun r m' h h0 => by cases h; omega⟩
    obtain ⟨s1, s2⟩ := Script.read_value m.redeemScript hm.redeem v hg.2.2
    dsimp only
    rw [if_neg (by change (m.redeemScript.fromStream (.of (varBytes v))).1.status ≠ _; rw [s1]; simp)]
    refine ⟨fun h => (by cases h), fun r m' h h0 => ?_⟩
    cases h
    exact ⟨hm.txOut, s2.ready s1, hm.witness, by rw [e6]; exact hm.keys, by rw [e2]; exact hm.sigs⟩
  rw [if_neg c4]
  by_cases c5 : code = 5
  · subst c5
    have e6 := entries_other (v := v) qs hc (show (6 : UInt8) ≠ 5 by decide)
    have e2 := entries_other (v := v) qs hc (show (2 : UInt8) ≠ 5 by decide)
    rw [if_pos rfl]
    intro _
    split
    · exact ⟨fun h => (by cases h), fun r m' h h0 => by cases h; omega⟩
    obtain ⟨s1, s2⟩ := Script.read_value m.witnessScript hm.witness v hg.2.2
    dsimp only
    rw [if_neg (by change (m.witnessScript.fromStream (.of (varBytes v))).1.status ≠ _; rw [s1]; simp)]
    refine ⟨fun h => (by cases h), fun r m' h h0 => ?_⟩
    cases h
    exact ⟨hm.txOut, hm.redeem, s2.ready s1, by rw [e6]; exact hm.keys, by rw [e2]; exact hm.sigs⟩
  rw [if_neg c5]
  by_cases c6 : code = 6
  · subst c6
    have e2 := entries_other (v := v) qs hc (show (2 : UInt8) ≠ 6 by decide)
    rw [if_pos rfl]
    intro _
    obtain ⟨d1, d2⟩ := addDerivation_safe hj (ds := m.derivations) hg.2.1 hg.2.2 hc
    cases hd : addDerivation junk m.derivations (varBytes k) (varBytes v) with
    | ub =>
      obtain ⟨a, b⟩ := d1 hd
      exact ⟨fun _ => Or.inr (Or.inr (Or.inr ⟨a, by rw [← hm.keys]; exact b⟩)), fun r m' h => by cases h⟩
    | ok y =>
      obtain ⟨r, ds⟩ := y
      refine ⟨fun h => (by cases h), fun r' m' h h0 => ?_⟩
      cases h
      obtain ⟨a, b⟩ := d2 r ds hd h0
      exact ⟨hm.txOut, hm.redeem, hm.witness, by rw [entries_snoc, if_pos a, ← hm.keys]; exact b, by rw [e2]; exact hm.sigs⟩
  rw [if_neg c6]
  have e6 := entries_other (v := v) qs hc (Ne.symm c6)
  have e2 := entries_other (v := v) qs hc (Ne.symm c2)
  intro _
  refine ⟨fun h => (by cases h), fun r m' h h0 => ?_⟩
  cases h
  exact ⟨hm.txOut, hm.redeem, hm.witness, by rw [e6]; exact hm.keys, by rw [e2]; exact hm.sigs⟩

theorem OutMeta.add_safe {junk : Bytes} (hj : junk.length = 65) {m : OutMeta} {code : UInt8} {k v : Bytes} {qs : List Pair} (hg : PSBT.GoodPair (k, v))
    (hm : m.Read qs) (hc : keyCode k = .ok code) :
    (m.add junk code (varBytes k) (varBytes v) = .ub → BadOutPair qs k v) ∧
    ∀ r m', m.add junk code (varBytes k) (varBytes v) = .ok (r, m') → 0 ≤ r → m'.Read (qs ++ [(k, v)]) := by
  unfold OutMeta.add
  by_cases c0 : code = 0
  · subst c0
    have e2 := entries_other (v := v) qs hc (show (2 : UInt8) ≠ 0 by decide)
    rw [if_pos rfl]
    split
    · exact ⟨fun h => (by cases h), fun r m' h h0 => by cases h; omega⟩
    obtain ⟨s1, s2⟩ := Script.read_value m.redeemScript hm.redeem v hg.2.2
    dsimp only
    rw [if_neg (by change (m.redeemScript.fromStream (.of (varBytes v))).1.status ≠ _; rw [s1]; simp)]
    refine ⟨fun h => (by cases h), fun r m' h h0 => ?_⟩
    cases h
    exact ⟨s2.ready s1, hm.witness, by rw [e2]; exact hm.keys⟩
  rw [if_neg c0]
  by_cases c1 : code = 1
  · subst c1
    have e2 := entries_other (v := v) qs hc (show (2 : UInt8) ≠ 1 by decide)
    rw [if_pos rfl]
    split
    · exact ⟨fun h => (by cases h), fun r m' h h0 => by cases h; omega⟩
    obtain ⟨s1, s2⟩ := Script.read_value m.witnessScript hm.witness v hg.2.2
    dsimp only
    rw [if_neg (by change (m.witnessScript.fromStream (.of (varBytes v))).1.status ≠ _; rw [s1]; simp)]
    refine ⟨fun h => (by cases h), fun r m' h h0 => ?_⟩
    cases h
    exact ⟨hm.redeem, s2.ready s1, by rw [e2]; exact hm.keys⟩
  rw [if_neg c1]
  by_cases c2 : code = 2
  · subst c2
    rw [if_pos rfl]
    obtain ⟨d1, d2⟩ := addDerivation_safe hj (ds := m.derivations) hg.2.1 hg.2.2 hc
    cases hd : addDerivation junk m.derivations (varBytes k) (varBytes v) with
    | ub =>
      obtain ⟨a, b⟩ := d1 hd
      exact ⟨fun _ => ⟨a, by rw [← hm.keys]; exact b⟩, fun r m' h => by cases h⟩
    | ok y =>
      obtain ⟨r, ds⟩ := y
      refine ⟨fun h => (by cases h), fun r' m' h h0 => ?_⟩
      cases h
      obtain ⟨a, b⟩ := d2 r ds hd h0
      exact ⟨hm.redeem, hm.witness, by rw [entries_snoc, if_pos a, ← hm.keys]; exact b⟩
  rw [if_neg c2]
  have e2 := entries_other (v := v) qs hc (Ne.symm c2)
  refine ⟨fun h => (by cases h), fun r m' h h0 => ?_⟩
  cases h
  exact ⟨hm.redeem, hm.witness, by rw [e2]; exact hm.keys⟩

/-! ### The maps -/

theorem keyCode_ok {k : Bytes} (h : k ≠ []) : ∃ c, keyCode k = .ok c := by
  have hl : misread k.length < k.length := by
    have := List.length_pos_iff.mpr h
    unfold misread
    split_ifs <;> omega
  unfold keyCode peek
  rw [List.getElem?_eq_getElem hl]
  exact ⟨_, rfl⟩

/-- A pair of map number `sec` (0 for the global map) behind the pairs `qs` of this map which may be undefined; `i` inputs. -/
def Spec.BadPair (i sec : Nat) (qs : List Pair) (k v : Bytes) : Prop :=
  (1 ≤ sec ∧ sec ≤ i ∧ BadInPair qs k v) ∨ (i < sec ∧ BadOutPair qs k v)

/-- Where a parse of the maps of a PSBT may become undefined: behind the complete maps `pre` and the pairs `qs` of the next map. -/
def Spec.BadRest (i : Nat) (sec : Nat) (qs : List Pair) (tail : Bytes) : Prop :=
  HugeLen tail ∨ (∃ k r, k ≠ [] ∧ k.length < 2 ^ 31 ∧ tail = varBytes k ++ r ∧ HugeLen r) ∨
  ∃ k v r, PSBT.GoodPair (k, v) ∧ tail = pairBytes (k, v) ++ r ∧ BadPair i sec qs k v

namespace PSBT

/-- The metadata while map `sec` is read, after its pairs `qs`. -/
structure MetasAt (tx : Tx) (ms : List InMeta × List OutMeta) (sec : Nat) (qs : List Pair) : Prop where
  ins : ms.1.length = tx.txIns.length
  outs : ms.2.length = tx.txOuts.length
  inNow : ∀ j m, ms.1[j]? = some m → sec = j + 1 → m.Read qs
  inLater : ∀ j m, ms.1[j]? = some m → sec < j + 1 → m.Read []
  outNow : ∀ j m, ms.2[j]? = some m → sec = tx.txIns.length + j + 1 → m.Read qs
  outLater : ∀ j m, ms.2[j]? = some m → sec < tx.txIns.length + j + 1 → m.Read []

theorem MetasAt.next {tx : Tx} {ms : List InMeta × List OutMeta} {sec : Nat} {qs : List Pair} (h : MetasAt tx ms sec qs) : MetasAt tx ms (sec + 1) [] :=
  ⟨h.ins, h.outs, fun j m hm e => h.inLater j m hm (by omega), fun j m hm e => h.inLater j m hm (by omega),
    fun j m hm e => h.outLater j m hm (by omega), fun j m hm e => h.outLater j m hm (by omega)⟩

theorem addM_safe {tx : Tx} {junk : Bytes} (hj : junk.length = 65) {sec : Nat} {ms : List InMeta × List OutMeta} {k v : Bytes} {qs : List Pair}
    (hsec : sec < 1 + tx.txIns.length + tx.txOuts.length) (hg : GoodPair (k, v)) (hm : MetasAt tx ms sec qs) :
    (addM tx junk sec ms k v = .ub → BadPair tx.txIns.length sec qs k v) ∧
    ∀ r ms', addM tx junk sec ms k v = .ok (r, ms') → 0 ≤ r → MetasAt tx ms' sec (qs ++ [(k, v)]) := by
  unfold addM
  by_cases h0 : sec = 0
  · rw [if_pos (Or.inl h0)]
    refine ⟨fun h => (by cases h), fun r ms' h _ => ?_⟩
    cases h
    exact ⟨hm.ins, hm.outs, fun j m _ e => absurd e (by omega), hm.inLater, fun j m _ e => absurd e (by omega), hm.outLater⟩
  rw [if_neg (by omega)]
  obtain ⟨c, hc⟩ := keyCode_ok hg.1
  rw [peek_dataPos k hg.2.1]
  change (keyCode k >>= _ = _ → _) ∧ ∀ r ms', keyCode k >>= _ = _ → _
  rw [hc, C.bind_ok]
  by_cases h1 : sec < 1 + tx.txIns.length
  · rw [if_pos h1]
    obtain ⟨m, em⟩ : ∃ m, ms.1[sec - 1]? = some m := ⟨_, List.getElem?_eq_getElem (by rw [hm.ins]; omega)⟩
    obtain ⟨ti, et⟩ : ∃ t, tx.txIns[sec - 1]? = some t := ⟨_, List.getElem?_eq_getElem (by omega)⟩
    rw [em, et]
    dsimp only
    obtain ⟨s1, s2⟩ := InMeta.add_safe (ti := ti) hj hg (hm.inNow _ m em (by omega)) hc
    cases hd : m.add junk ti c (varBytes k) (varBytes v) with
    | ub => exact ⟨fun _ => Or.inl ⟨by omega, by omega, s1 hd⟩, fun r ms' h => by cases h⟩
    | ok y =>
      obtain ⟨r, m'⟩ := y
      refine ⟨fun h => (by cases h), fun r' ms' h hr => ?_⟩
      cases h
      have hm' := s2 r m' hd hr
      refine ⟨by simp [hm.ins], hm.outs, ?_, ?_, ?_, hm.outLater⟩
      · intro j x hx e
        dsimp only at hx
        rw [show sec - 1 = j by omega, List.getElem?_set_self (by rw [hm.ins]; omega)] at hx
        cases hx; exact hm'
      · intro j x hx e
        dsimp only at hx
        rw [List.getElem?_set_ne (by omega)] at hx
        exact hm.inLater j x hx e
      · intro j x hx e; omega
  · rw [if_neg h1]
    obtain ⟨m, em⟩ : ∃ m, ms.2[sec - 1 - tx.txIns.length]? = some m := ⟨_, List.getElem?_eq_getElem (by rw [hm.outs]; omega)⟩
    rw [em]
    dsimp only
    obtain ⟨s1, s2⟩ := OutMeta.add_safe hj hg (hm.outNow _ m em (by omega)) hc
    cases hd : m.add junk c (varBytes k) (varBytes v) with
    | ub => exact ⟨fun _ => Or.inr ⟨by omega, s1 hd⟩, fun r ms' h => by cases h⟩
    | ok y =>
      obtain ⟨r, m'⟩ := y
      refine ⟨fun h => (by cases h), fun r' ms' h hr => ?_⟩
      cases h
      have hm' := s2 r m' hd hr
      refine ⟨hm.ins, by simp [hm.outs], ?_, ?_, ?_, ?_⟩
      · intro j x hx e
        dsimp only at hx
        have := (List.getElem?_eq_some_iff.mp hx).1
        rw [hm.ins] at this
        omega
      · intro j x hx e
        dsimp only at hx
        have := (List.getElem?_eq_some_iff.mp hx).1
        rw [hm.ins] at this
        omega
      · intro j x hx e
        dsimp only at hx
        rw [show sec - 1 - tx.txIns.length = j by omega, List.getElem?_set_self (by rw [hm.outs]; omega)] at hx
        cases hx; exact hm'
      · intro j x hx e
        dsimp only at hx
        rw [List.getElem?_set_ne (by omega)] at hx
        exact hm.outLater j x hx e

theorem loop_safe (junk : Nat → Bytes) (hj : ∀ n, (junk n).length = 65) : ∀ (fuel : Nat) (p : PSBT) (br : Nat) (c : Bytes) (qs : List Pair),
    p.key.Ready → p.value.Ready → p.status = .incomplete → 5 < p.lastKeyPos → MetasAt p.tx (p.ins, p.outs) p.sec.toNat qs → (∀ q ∈ qs, GoodPair q) →
    (loop junk fuel p br (.of c)).1.status = .ub →
    ∃ pre ps tail, qs.flatMap pairBytes ++ c = mapsBytes pre ++ ps.flatMap pairBytes ++ tail ∧ (∀ m ∈ pre, ∀ q ∈ m, GoodPair q) ∧ (∀ q ∈ ps, GoodPair q) ∧
      p.sec.toNat + pre.length < p.sections.toNat ∧ BadRest p.tx.txIns.length (p.sec.toNat + pre.length) ps tail := by
  intro fuel
  have hfin : ∀ (p : PSBT) br s, p.status = .incomplete → (p.finishAll br s).1.status ≠ .ub := by
    intro p br s h
    unfold finishAll finish
    split_ifs
    · simp
    · dsimp only; rw [h]; simp
  induction fuel with
  | zero =>
    intro p br c qs hk hv hs hl hm hq h
    exact absurd h (hfin p br _ hs)
  | succ fuel ih =>
    intro p br c qs hk hv hs hl hm hq h
    unfold loop at h
    by_cases hcond : (PStream.of c).avail ∧ p.sec < p.sections
    · rw [if_pos hcond] at h
      have hcne : c ≠ [] := by
        rintro rfl
        simp at hcond
      have hlt : p.sec.toNat < p.sections.toNat := UInt8.lt_iff_toNat_lt.mp hcond.2
      have hlt2 : p.sec.toNat < 1 + p.tx.txIns.length + p.tx.txOuts.length := by
        have : p.sections.toNat ≤ 1 + p.tx.txIns.length + p.tx.txOuts.length := by
          unfold sections
          rw [if_pos (by omega), UInt8.toNat_ofNat']
          exact Nat.mod_le _ _
        omega
      have hro := round_out p (junk p.lastKeyPos) br c hcne hk hv
      generalize p.round (junk p.lastKeyPos) br (.of c) = x at hro h
      cases hro with
      | delim r k hk' hc =>
        dsimp only at h
        have hsec : (p.sec + 1).toNat = p.sec.toNat + 1 := by
          rw [UInt8.toNat_add]
          have := p.sections.toNat_lt
          have h1 : (1 : UInt8).toNat = 1 := rfl
          omega
        obtain ⟨pre, ps, tail, h1, h2, h3, h4, h5⟩ := ih { p with key := k, sec := p.sec + 1, lastKeyPos := p.lastKeyPos + 1 } _ _ [] hk' hv hs (by dsimp only; omega)
          (by dsimp only; rw [hsec]; exact hm.next) (by simp) h
        have hsections := sections_eq (p := p) (q := { p with key := k, sec := p.sec + 1, lastKeyPos := p.lastKeyPos + 1 }) rfl hl (by dsimp only; omega)
        dsimp only at h4 h5
        rw [hsec] at h4 h5
        rw [hsections] at h4
        have hcs := (readVar_sound _ _ _ hc).1
        rw [varBytes_nil] at hcs
        refine ⟨qs :: pre, ps, tail, ?_, ?_, h3, by rw [List.length_cons]; omega, ?_⟩
        · rw [hcs]
          unfold mapsBytes at h1 ⊢
          rw [List.flatMap_cons]
          unfold mapBytes
          simp only [List.flatMap_nil, List.nil_append] at h1
          rw [h1]
          unfold mapBytes
          simp [List.append_assoc]
        · intro m hm'
          rcases List.mem_cons.mp hm' with rfl | hm'
          · exact hq
          · exact h2 m hm'
        · rw [List.length_cons, show p.sec.toNat + (pre.length + 1) = p.sec.toNat + 1 + pre.length by omega]
          exact h5
      | pair kb vb r r' k v hk' hv' hc hne hr res ms' ha h0 =>
        dsimp only at h
        have hcs := readVar_sound _ _ _ hc
        have hcs2 := readVar_sound _ _ _ hr
        have hg : GoodPair (kb, vb) := ⟨hne, hcs.2, hcs2.2⟩
        have hm' := (addM_safe (hj _) hlt2 hg hm).2 _ _ ha h0
        obtain ⟨pre, ps, tail, h1, h2, h3, h4, h5⟩ := ih { p with key := k, value := v, ins := ms'.1, outs := ms'.2, lastKeyPos := p.lastKeyPos + ((varBytes kb).length + (varBytes vb).length) } _ _ (qs ++ [(kb, vb)]) hk' hv' hs (by dsimp only; omega)
          hm' (by
            intro q hq'
            rcases List.mem_append.mp hq' with hq' | hq'
            · exact hq q hq'
            · rw [List.mem_singleton] at hq'; rw [hq']; exact hg) h
        have hsections := sections_eq (p := p) (q := { p with key := k, value := v, ins := ms'.1, outs := ms'.2, lastKeyPos := p.lastKeyPos + ((varBytes kb).length + (varBytes vb).length) }) rfl hl (by dsimp only; omega)
        dsimp only at h4 h5
        rw [hsections] at h4
        refine ⟨pre, ps, tail, ?_, h2, h3, h4, h5⟩
        rw [← h1, hcs.1, hcs2.1, List.flatMap_append]
        simp [pairBytes, List.append_assoc]
      | refused kb vb r r' q hc hne hr ha hq' hx hu =>
        have hcs := readVar_sound _ _ _ hc
        have hcs2 := readVar_sound _ _ _ hr
        have hg : GoodPair (kb, vb) := ⟨hne, hcs.2, hcs2.2⟩
        refine ⟨[], qs, c, by simp [mapsBytes], by simp, hq, by simpa using hlt, Or.inr (Or.inr ⟨kb, vb, r', hg, ?_, ?_⟩)⟩
        · rw [hcs.1, hcs2.1]; simp [pairBytes, List.append_assoc]
        · rw [List.length_nil, Nat.add_zero]
          refine (addM_safe (hj p.lastKeyPos) hlt2 hg hm).1 ?_
          cases e : addM p.tx (junk p.lastKeyPos) p.sec.toNat (p.ins, p.outs) kb vb with
          | ub => rfl
          | ok y =>
            obtain ⟨res, ms⟩ := y
            have := (hx res ms e).1
            dsimp only at h
            rw [h] at this
            cases this
      | stopped q hc hq' hu =>
        refine ⟨[], qs, c, by simp [mapsBytes], by simp, hq, by simpa using hlt, ?_⟩
        rcases hu.mp h with h1 | ⟨kb, r, h1, h2⟩
        · exact Or.inl h1
        · have hcs := readVar_sound _ _ _ h1
          refine Or.inr (Or.inl ⟨kb, r, ?_, hcs.2, hcs.1, h2⟩)
          rcases hc with hc | ⟨kb', r', hc, hne, -⟩
          · rw [h1] at hc; cases hc
          · rw [h1] at hc; cases hc; exact hne
      | more q n hc hs' ht hsec hpos =>
        exfalso
        dsimp only at h
        have : (loop junk fuel q n (.of [])) = q.finishAll n (.of []) := by
          cases fuel with
          | zero => rfl
          | succ fuel => unfold loop; rw [if_neg (by simp)]
        rw [this] at h
        exact hfin q n _ (by rw [hs', hs]) h
    · rw [if_neg hcond] at h
      exact absurd h (hfin p br _ hs)

theorem readVar_append {c d r : Bytes} (h : readVar c = .ok d r) (x : Bytes) : readVar (c ++ x) = .ok d (r ++ x) := by
  have := readVar_sound _ _ _ h
  rw [this.1, List.append_assoc]
  exact readVar_varBytes d _ this.2

theorem hugeLen_append {c : Bytes} (h : HugeLen c) (x : Bytes) : HugeLen (c ++ x) := by
  obtain ⟨r, rfl, h⟩ := h
  refine ⟨r ++ x, rfl, ?_⟩
  rw [List.length_append]
  rcases h with h | ⟨h1, h2⟩
  · exact Or.inl (by omega)
  · cases x with
    | nil => exact Or.inr ⟨by simpa using h1, by simpa using h2⟩
    | cons b x => exact Or.inl (by simp; omega)

/-- Two objects that differ in the key and value last read at most. -/
def SameMaps (p q : PSBT) : Prop := q.tx = p.tx ∧ q.ins = p.ins ∧ q.outs = p.outs ∧ q.sec = p.sec ∧ q.lastKeyPos = p.lastKeyPos

theorem loop_extend (junk : Nat → Bytes) : ∀ (fuel fuel' : Nat) (p q : PSBT) (br br' : Nat) (c x : Bytes), fuel ≤ fuel' →
    p.key.Ready → p.value.Ready → q.key.Ready → q.value.Ready → p.status = .incomplete → 5 < p.lastKeyPos → SameMaps p q →
    (loop junk fuel p br (.of c)).1.status = .ub → (loop junk fuel' q br' (.of (c ++ x))).1.status = .ub := by
  intro fuel
  have hfin : ∀ (p : PSBT) br s, p.status = .incomplete → (p.finishAll br s).1.status ≠ .ub := by
    intro p br s h
    unfold finishAll finish
    split_ifs
    · simp
    · dsimp only; rw [h]; simp
  induction fuel with
  | zero =>
    intro fuel' p q br br' c x hf hk hv hk' hv' hs hl hpq h
    exact absurd h (hfin p br _ hs)
  | succ fuel ih =>
    intro fuel' p q br br' c x hf hk hv hkq hvq hs hl hpq h
    obtain ⟨fuel', rfl⟩ : ∃ n, fuel' = n + 1 := ⟨fuel' - 1, by omega⟩
    unfold loop at h
    by_cases hcond : (PStream.of c).avail ∧ p.sec < p.sections
    swap
    · rw [if_neg hcond] at h
      exact absurd h (hfin p br _ hs)
    rw [if_pos hcond] at h
    have hcne : c ≠ [] := by
      rintro rfl
      simp at hcond
    have hcne' : c ++ x ≠ [] := by simp [hcne]
    obtain ⟨t1, t2, t3, t4, t5⟩ := hpq
    have hsq : q.sections = p.sections := sections_eq t1 hl (by rw [t5]; exact hl)
    unfold loop
    rw [if_pos ⟨by rw [PStream.avail_of]; simpa using hcne', by rw [t4, hsq]; exact hcond.2⟩, t5]
    have hro := round_out p (junk p.lastKeyPos) br c hcne hk hv
    have hro' := round_out q (junk p.lastKeyPos) br' (c ++ x) hcne' hkq hvq
    generalize p.round (junk p.lastKeyPos) br (.of c) = y at hro h
    generalize q.round (junk p.lastKeyPos) br' (.of (c ++ x)) = y' at hro' ⊢
    cases hro with
    | delim r k hk' hc =>
      have hc' := readVar_append hc x
      cases hro' with
      | delim r2 k2 hk2 hc2 =>
        rw [hc'] at hc2
        cases hc2
        dsimp only at h ⊢
        exact ih fuel' { p with key := k, sec := p.sec + 1, lastKeyPos := p.lastKeyPos + 1 } { q with key := k2, sec := q.sec + 1, lastKeyPos := q.lastKeyPos + 1 } _ _ _ x (by omega) hk' hv hk2 hvq hs (by dsimp only; omega)
          ⟨t1, t2, t3, by dsimp only; rw [t4], by dsimp only; rw [t5]⟩ h
      | pair kb vb r2 r2' k2 v2 hk2 hv2 hc2 hne => rw [hc'] at hc2; cases hc2; exact absurd rfl hne
      | refused kb vb r2 r2' q2 hc2 hne => rw [hc'] at hc2; cases hc2; exact absurd rfl hne
      | stopped q2 hc2 =>
        rw [hc'] at hc2
        rcases hc2 with hc2 | ⟨_, _, hc2, hne, -⟩
        · cases hc2
        · cases hc2; exact absurd rfl hne
      | more q2 n hc2 =>
        rw [hc'] at hc2
        rcases hc2 with hc2 | ⟨_, _, hc2, hne, -⟩
        · cases hc2
        · cases hc2; exact absurd rfl hne
    | pair kb vb r r' k v hk' hv' hc hne hr res ms' ha h0 =>
      have hc' := readVar_append hc x
      have hr' := readVar_append hr x
      cases hro' with
      | delim r2 k2 hk2 hc2 => rw [hc'] at hc2; cases hc2; exact absurd rfl hne
      | pair kb2 vb2 r2 r2' k2 v2 hk2 hv2 hc2 hne2 hr2 res2 ms2 ha2 h02 =>
        rw [hc'] at hc2
        cases hc2
        rw [hr'] at hr2
        cases hr2
        rw [t1, t2, t3, t4, ha] at ha2
        cases ha2
        dsimp only at h ⊢
        exact ih fuel' { p with key := k, value := v, ins := ms'.1, outs := ms'.2, lastKeyPos := p.lastKeyPos + ((varBytes kb).length + (varBytes vb).length) }
          { q with key := k2, value := v2, ins := ms'.1, outs := ms'.2, lastKeyPos := q.lastKeyPos + ((varBytes kb).length + (varBytes vb).length) } _ _ _ x (by omega)
          hk' hv' hk2 hv2 hs (by dsimp only; omega) ⟨t1, rfl, rfl, t4, by dsimp only; rw [t5]⟩ h
      | refused kb2 vb2 r2 r2' q2 hc2 hne2 hr2 ha2 =>
        rw [hc'] at hc2
        cases hc2
        rw [hr'] at hr2
        cases hr2
        rw [t1, t2, t3, t4] at ha2
        have := ha2 _ _ ha
        omega
      | stopped q2 hc2 =>
        rw [hc'] at hc2
        rcases hc2 with hc2 | ⟨_, _, hc2, hne, hn⟩
        · cases hc2
        · cases hc2; exact absurd hr' (hn _ _)
      | more q2 n hc2 =>
        rw [hc'] at hc2
        rcases hc2 with hc2 | ⟨_, _, hc2, hne, hn⟩
        · cases hc2
        · cases hc2; rw [hr'] at hn; cases hn
    | refused kb vb r r' q1 hc hne hr ha hq' hx hu =>
      have hc' := readVar_append hc x
      have hr' := readVar_append hr x
      have hadd : addM p.tx (junk p.lastKeyPos) p.sec.toNat (p.ins, p.outs) kb vb = .ub := by
        cases e : addM p.tx (junk p.lastKeyPos) p.sec.toNat (p.ins, p.outs) kb vb with
        | ub => rfl
        | ok y =>
          obtain ⟨res, ms⟩ := y
          have := (hx res ms e).1
          dsimp only at h
          rw [h] at this
          cases this
      cases hro' with
      | delim r2 k2 hk2 hc2 => rw [hc'] at hc2; cases hc2; exact absurd rfl hne
      | pair kb2 vb2 r2 r2' k2 v2 hk2 hv2 hc2 hne2 hr2 res2 ms2 ha2 h02 =>
        rw [hc'] at hc2
        cases hc2
        rw [hr'] at hr2
        cases hr2
        rw [t1, t2, t3, t4, hadd] at ha2
        cases ha2
      | refused kb2 vb2 r2 r2' q2 hc2 hne2 hr2 ha2 hq2 hx2 hu2 =>
        rw [hc'] at hc2
        cases hc2
        rw [hr'] at hr2
        cases hr2
        exact hu2 (by rw [t1, t2, t3, t4]; exact hadd)
      | stopped q2 hc2 =>
        rw [hc'] at hc2
        rcases hc2 with hc2 | ⟨_, _, hc2, hne, hn⟩
        · cases hc2
        · cases hc2; exact absurd hr' (hn _ _)
      | more q2 n hc2 =>
        rw [hc'] at hc2
        rcases hc2 with hc2 | ⟨_, _, hc2, hne, hn⟩
        · cases hc2
        · cases hc2; rw [hr'] at hn; cases hn
    | stopped q1 hc hq' hu =>
      have hbad : ∀ c : Bytes, HugeLen c → readVar c = .bad := fun c h => ((hugeLen_iff c).mp h).1
      have hu' : HugeLen (c ++ x) ∨ ∃ kb r, kb ≠ [] ∧ readVar (c ++ x) = .ok kb r ∧ HugeLen r := by
        rcases hu.mp h with h1 | ⟨kb, r, h1, h2⟩
        · exact Or.inl (hugeLen_append h1 x)
        · refine Or.inr ⟨kb, r ++ x, ?_, readVar_append h1 x, hugeLen_append h2 x⟩
          rcases hc with hc | ⟨kb', r', hc, hne, -⟩
          · rw [h1] at hc; cases hc
          · rw [h1] at hc; cases hc; exact hne
      have hno : ∀ kb r, readVar (c ++ x) = .ok kb r → kb ≠ [] ∧ readVar r = .bad := by
        intro kb r e
        rcases hu' with h1 | ⟨kb', r', hne, h1, h2⟩
        · rw [hbad _ h1] at e; cases e
        · rw [h1] at e; cases e; exact ⟨hne, hbad _ h2⟩
      cases hro' with
      | delim r2 k2 hk2 hc2 => exact absurd rfl (hno _ _ hc2).1
      | pair kb2 vb2 r2 r2' k2 v2 hk2 hv2 hc2 hne2 hr2 => rw [(hno _ _ hc2).2] at hr2; cases hr2
      | refused kb2 vb2 r2 r2' q2 hc2 hne2 hr2 => rw [(hno _ _ hc2).2] at hr2; cases hr2
      | stopped q2 hc2 hq2 hu2 =>
        refine hu2.mpr ?_
        rcases hu' with h1 | ⟨kb', r', -, h1, h2⟩
        · exact Or.inl h1
        · exact Or.inr ⟨kb', r', h1, h2⟩
      | more q2 n hc2 =>
        exfalso
        rcases hc2 with hc2 | ⟨_, _, hc2, hne, hn⟩
        · rcases hu' with h1 | ⟨kb', r', -, h1, h2⟩
          · rw [hbad _ h1] at hc2; cases hc2
          · rw [h1] at hc2; cases hc2
        · rw [(hno _ _ hc2).2] at hn; cases hn
    | more q1 n hc hs' ht hsec hpos =>
      exfalso
      dsimp only at h
      rw [loop_empty] at h
      exact hfin q1 n _ (by rw [hs', hs]) h

theorem firstUb_append {t : Tx} {c : Bytes} (h : FirstUb t c) (x : Bytes) : FirstUb t (c ++ x) := by
  rcases h with h | ⟨k, r, h1, rfl, h2⟩ | ⟨k, r, h1, rfl, h2⟩ | ⟨v, r, h1, rfl, h2⟩
  · exact Or.inl (hugeLen_append h x)
  · exact Or.inr (Or.inl ⟨k, r ++ x, h1, by rw [List.append_assoc], hugeLen_append h2 x⟩)
  · exact Or.inr (Or.inr (Or.inl ⟨k, r ++ x, h1, by rw [List.append_assoc], hugeLen_append h2 x⟩))
  · exact Or.inr (Or.inr (Or.inr ⟨v, r ++ x, h1, by rw [List.append_assoc], h2⟩))

/-- Parses of a clean object that are undefined. -/
theorem parse_ub (junk : Nat → Bytes) {p : PSBT} (hp : p.Clean) (bs : Bytes) : (fromStream junk p (.of bs)).1.status = .ub ↔
    ∃ c, bs = psbtMagic ++ c ∧ (FirstUb p.txStart c ∨ ∃ vb r k v, c = pairBytes ([0], vb) ++ r ∧ vb.length < 2 ^ 31 ∧ k.Ready ∧ v.Ready ∧
      (p.txStart.fromStream (.of (vb.drop (misread vb.length)))).1.status = .done ∧
      (loop junk (2 * r.length + 2) (p.afterTx (p.txStart.fromStream (.of (vb.drop (misread vb.length)))).1 k v vb) (5 + (2 + (varBytes vb).length)) (.of r)).1.status = .ub) := by
  rw [fromStream_eq junk hp]
  rcases readMagic_spec magic 0 bs with ⟨c, rfl, h2⟩ | ⟨h1, h2, h3⟩ | ⟨h1, h2, h3⟩
  · rw [h2]
    dsimp only
    have hcan : ∀ c', magic ++ c = psbtMagic ++ c' → c = c' := fun c' h => List.append_cancel_left h
    have hnF : ∀ vb r, c = pairBytes ([0], vb) ++ r → vb.length < 2 ^ 31 → (p.txStart.fromStream (.of (vb.drop (misread vb.length)))).1.status = .done → ¬ FirstUb p.txStart c := by
      rintro vb r rfl e2 e5 hF
      rw [firstUb_iff] at hF
      have hrd : readVar (pairBytes ([0], vb) ++ r) = .ok [0] (varBytes vb ++ r) := by
        unfold pairBytes
        rw [List.append_assoc]
        exact readVar_varBytes [0] _ (by decide)
      have hrd2 := readVar_varBytes vb r e2
      have hnb := not_badLen (by rw [hrd]; simp) (P := HugeLen)
      rw [hrd] at hF
      rcases hF with ⟨h, -⟩ | ⟨k', r', h, h2⟩ | h | ⟨r1, v1, r2, h, h2, h3⟩
      · cases h
      · cases h; rw [hugeLen_iff, hrd2] at h2; cases h2.1
      · exact hnb h
      · cases h; rw [hrd2] at h2; cases h2; rw [e5] at h3; cases h3
    rcases readGlobal_out junk p hp c with ⟨vb, r, k, v, e1, e2, e3, e4, e5, e6⟩ | ⟨⟨-, e1⟩, e2⟩
    · change (readGlobal junk p.start 5 (.of c)).1.status = .ub ↔ _
      constructor
      · intro h
        rw [e6] at h
        exact ⟨c, rfl, Or.inr ⟨vb, r, k, v, e1, e2, e3, e4, e5, h⟩⟩
      · rintro ⟨c', hc, h | ⟨vb', r', k', v', f1, f2, f3, f4, f5, f6⟩⟩
        · rw [← hcan _ hc] at h
          exact absurd h (hnF vb r e1 e2 e5)
        · rw [← hcan _ hc] at f1
          have hrd : ∀ vb r, readVar (pairBytes ([0], vb) ++ r) = .ok [0] (varBytes vb ++ r) := by
            intro vb r
            unfold pairBytes
            rw [List.append_assoc]
            exact readVar_varBytes [0] _ (by decide)
          have g1 := hrd vb r
          rw [← e1, f1, hrd vb' r'] at g1
          have g2 := readVar_varBytes vb r e2
          rw [Outcome.ok.injEq] at g1
          rw [← g1.2, readVar_varBytes vb' r' f2] at g2
          cases g2
          rw [e6]
          have := loop_extend junk _ (2 * r.length + 2) (p.afterTx (p.txStart.fromStream (.of (vb.drop (misread vb.length)))).1 k' v' vb) (p.afterTx (p.txStart.fromStream (.of (vb.drop (misread vb.length)))).1 k v vb) _ (5 + (2 + (varBytes vb).length)) r []
            (Nat.le_refl _) (by exact f3) (by exact f4) (by exact e3) (by exact e4) rfl (by unfold afterTx; dsimp only; omega) ⟨rfl, rfl, rfl, rfl, rfl⟩ f6
          rw [List.append_nil] at this
          exact this
    · change (readGlobal junk p.start 5 (.of c)).1.status = .ub ↔ _
      rw [e1]
      constructor
      · intro h; exact ⟨c, rfl, Or.inl h⟩
      · rintro ⟨c', hc, h | ⟨vb', r', k', v', f1, f2, f3, f4, f5, f6⟩⟩
        · rw [← hcan _ hc] at h; exact h
        · rw [← hcan _ hc] at f1; exact absurd ⟨vb', r', f1, f2, f5⟩ e2
  · constructor
    · intro h
      exfalso
      rw [h3] at h
      change (readGlobal junk p.start (0 + bs.length) (.of [])).1.status = .ub at h
      have hl : magic.length = 5 := rfl
      rw [short_fails junk hp _ (by omega)] at h
      cases h
    · rintro ⟨c, rfl, -⟩
      have : magic = psbtMagic := rfl
      rw [this, List.length_append] at h1
      omega
  · constructor
    · intro h
      exfalso
      generalize readMagic magic 0 (.of bs) = y at h h3
      obtain ⟨a, b, s⟩ := y
      cases h3
      simp [finish] at h
    · rintro ⟨c, rfl, -⟩
      exact absurd (List.prefix_append _ _) h1

theorem _root_.UB.C.of_bind {α β : Type} {x : C α} {f : α → C β} {b : β} (h : (x >>= f) = .ok b) : ∃ a, x = .ok a ∧ f a = .ok b := by
  cases x with
  | ub => cases h
  | ok a => exact ⟨a, rfl, h⟩

theorem runMap_metas {tx : Tx} {junk : Nat → Bytes} (hj : ∀ n, (junk n).length = 65) {sec : Nat} (hsec : sec < 1 + tx.txIns.length + tx.txOuts.length) :
    ∀ (qs : List Pair) {done : List Pair} {pos pos' : Nat} {ms ms' : List InMeta × List OutMeta}, (∀ q ∈ qs, GoodPair q) → MetasAt tx ms sec done →
    runMap tx junk sec qs pos ms = .ok (some (pos', ms')) → MetasAt tx ms' sec (done ++ qs)
  | [], done, pos, pos', ms, ms', _, hm, h => by
    unfold runMap at h
    cases h
    rw [List.append_nil]
    exact hm
  | (k, v) :: qs, done, pos, pos', ms, ms', hg, hm, h => by
    unfold runMap at h
    obtain ⟨⟨r, ms1⟩, h1, h2⟩ := C.of_bind h
    dsimp only at h2
    by_cases hr : r < 0
    · rw [if_pos hr] at h2; cases h2
    · rw [if_neg hr] at h2
      have h3 := (addM_safe (hj pos) hsec (hg _ (List.mem_cons_self ..)) hm).2 r ms1 h1 (by omega)
      have h4 := runMap_metas hj hsec qs (fun q hq => hg q (List.mem_cons_of_mem _ hq)) h3 h2
      rw [List.append_assoc] at h4
      exact h4

theorem runMaps_metas {tx : Tx} {junk : Nat → Bytes} (hj : ∀ n, (junk n).length = 65) :
    ∀ (maps : List (List Pair)) {sec pos pos' : Nat} {ms ms' : List InMeta × List OutMeta}, sec + maps.length ≤ 1 + tx.txIns.length + tx.txOuts.length →
    (∀ m ∈ maps, ∀ q ∈ m, GoodPair q) → MetasAt tx ms sec [] → runMaps tx junk maps sec pos ms = .ok (some (pos', ms')) → MetasAt tx ms' (sec + maps.length) []
  | [], sec, pos, pos', ms, ms', _, _, hm, h => by
    unfold runMaps at h
    cases h
    exact hm
  | m :: maps, sec, pos, pos', ms, ms', hs, hg, hm, h => by
    unfold runMaps at h
    rw [List.length_cons] at hs
    obtain ⟨o, h1, h2⟩ := C.of_bind h
    cases o with
    | none => cases h2
    | some y =>
      obtain ⟨pos1, ms1⟩ := y
      dsimp only at h2
      have h3 := runMap_metas hj (by omega) m (hg m (List.mem_cons_self ..)) hm h1
      have h4 := runMaps_metas hj maps (by omega) (fun m' hm' => hg m' (List.mem_cons_of_mem _ hm')) h3.next h2
      rw [List.length_cons, show sec + (maps.length + 1) = sec + 1 + maps.length by omega]
      exact h4

theorem noMeta_metas (t : Tx) : MetasAt t (noMeta t) 0 [] where
  ins := by simp [noMeta]
  outs := by simp [noMeta]
  inNow j m h _ := by rw [List.eq_of_mem_replicate (List.mem_of_getElem? h)]; exact InMeta.read_fresh
  inLater j m h _ := by rw [List.eq_of_mem_replicate (List.mem_of_getElem? h)]; exact InMeta.read_fresh
  outNow j m h _ := by rw [List.eq_of_mem_replicate (List.mem_of_getElem? h)]; exact OutMeta.read_fresh
  outLater j m h _ := by rw [List.eq_of_mem_replicate (List.mem_of_getElem? h)]; exact OutMeta.read_fresh

end PSBT

end UB
