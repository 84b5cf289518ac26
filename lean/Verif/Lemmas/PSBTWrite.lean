import Verif.Lemmas.PSBTComplete
import Verif.Props.Serialize

/-
Serialization of PSBTs from the start of the stream.
-/

namespace UB
open Spec

theorem Ser.after_cut {c : Nat} {full : Bytes} (h : c < full.length) (x : Bytes) : Ser.after (some c) 0 (full ++ x) = Ser.after (some c) 0 full := by
  unfold Ser.after window
  simp only [List.drop_zero]
  rw [List.take_append_of_le_length (by omega)]

theorem Ser.after_full {c : Nat} {full : Bytes} (h : c ≤ full.length) (x : Bytes) : Ser.after (some c) 0 (full ++ x) = Ser.after (some c) 0 full := by
  unfold Ser.after window
  simp only [List.drop_zero]
  rw [List.take_append_of_le_length (by omega)]

theorem Ser.after_avail {cap : Option Nat} {full : Bytes} : (Ser.after cap 0 full).avail = true ↔ ∀ c, cap = some c → full.length < c := by
  unfold Ser.after window Ser.avail
  cases cap with
  | none => simp
  | some c => simp; omega

theorem Ser.after_whole {cap : Option Nat} {full : Bytes} (h : (Ser.after cap 0 full).avail = true) : (Ser.after cap 0 full).out = full := by
  rw [Ser.after_avail] at h
  unfold Ser.after window
  cases cap with
  | none => simp
  | some c => simp; have := h c rfl; omega

theorem Ser.after_stuck {cap : Option Nat} {full : Bytes} (h : ¬ (Ser.after cap 0 full).avail = true) (x : Bytes) : Ser.after cap 0 (full ++ x) = Ser.after cap 0 full := by
  rw [Ser.after_avail] at h
  cases cap with
  | none => simp at h
  | some c => exact Ser.after_full (by simpa using h) x

namespace PSBT

theorem emitRel_after (cap : Option Nat) (full arr : Bytes) (n : Nat) (hn : n ≤ arr.length) :
    emitRel (Ser.after cap 0 full) 0 arr full.length n 0 = .ok (Ser.after cap 0 (full ++ arr.take n)) := by
  unfold emitRel
  split
  · rename_i h
    congr 1
    refine (Ser.after_stuck (fun ha => ?_) _).symm
    rw [Ser.after_whole ha] at h
    omega
  · exact Ser.emit_after' cap 0 full arr n hn _ _ rfl rfl

/-- The pair that is written for a partial signature: the type is always 1. -/
def _root_.UB.Spec.SigEntry.written (e : SigEntry) : Pair := (0x02 :: secOf e.compressed e.point, e.der ++ [0x01])

theorem emitSig_after (cap : Option Nat) (full : Bytes) {g : PartialSig} {e : SigEntry} (h : g.Holds e) (he : e.Ok) :
    emitSig (Ser.after cap 0 full) 0 g full.length 0 = .ok (Ser.after cap 0 (full ++ pairBytes e.written), (full ++ pairBytes e.written).length) ∧
      (pairBytes e.written).length = 2 + g.pubkey.length + (2 + g.signature.length) := by
  have hkl := length_secOf e.compressed e.point
  have hdl := der_length he.der
  have hpb : g.pubkey.bytes = secOf e.compressed e.point := by rw [ECPoint.bytes_spec h.pubkey.point, h.pubkey.compressed]
  have hpl : g.pubkey.length = (secOf e.compressed e.point).length := by rw [← hpb, ECPoint.length_bytes h.pubkey.point.length]
  obtain ⟨d, hd, hts⟩ := C32_toStream g.signature (by rw [h.r]; exact Spec.length_beBytes ..) (by rw [h.s]; exact Spec.length_beBytes ..)
  obtain ⟨d', -, hd2, hd3, -⟩ := C32_der g.signature (zeros 100) (by rw [h.r]; exact Spec.length_beBytes ..) (by rw [h.s]; exact Spec.length_beBytes ..) (by
    have h1 := length_derBytes g.signature.r (by rw [h.r]; exact Spec.length_beBytes ..)
    have h2 := length_derBytes g.signature.s (by rw [h.s]; exact Spec.length_beBytes ..)
    rw [length_zeros]
    unfold Sig.length
    omega)
  have hdd : d' = d := derSig_unique hd2 hd
  subst hdd
  have hde : d' = e.der := by
    rw [h.r, h.s, show beValue (beBytes 32 e.r) = e.r from beNat_beBytes32 he.r, show beValue (beBytes 32 e.s) = e.s from beNat_beBytes32 he.s] at hd
    exact derSig_unique hd he.der
  subst hde
  have hk : varBytes e.written.1 = UInt8.ofNat (1 + (secOf e.compressed e.point).length) :: 0x02 :: secOf e.compressed e.point := by
    unfold SigEntry.written
    rw [varBytes_small (by rw [List.length_cons, hkl]; split <;> omega), List.length_cons, Nat.add_comm]
  have h4 : e.der.length ≤ 72 := by
    have h1 := length_derBytes g.signature.r (by rw [h.r]; exact Spec.length_beBytes ..)
    have h2 := length_derBytes g.signature.s (by rw [h.s]; exact Spec.length_beBytes ..)
    rw [hd3]
    unfold Sig.length
    omega
  have hv : varBytes e.written.2 = UInt8.ofNat (1 + e.der.length) :: (e.der ++ [0x01]) := by
    unfold SigEntry.written
    rw [varBytes_small (by simp; omega), List.length_append, List.length_singleton, Nat.add_comm]
  have h65 : (secOf e.compressed e.point).length ≤ 65 := by rw [hkl]; split <;> omega
  constructor
  · unfold emitSig
    rw [serialize_eq _ _ (fun c o => by rw [ECPoint.toStream_spec _ h.pubkey.point.length, hpb]), C.bind_ok]
    unfold serialized
    simp only [List.drop_zero]
    rw [List.take_of_length_le h65]
    rw [emitRel_after _ _ _ _ (by simp; omega), C.bind_ok]
    have e1 : List.take (1 + (secOf e.compressed e.point).length + 1) (UInt8.ofNat (1 + (secOf e.compressed e.point).length) :: 0x02 :: (secOf e.compressed e.point ++ List.replicate (65 - (secOf e.compressed e.point).length) 0)) = varBytes e.written.1 := by
      rw [hk, Nat.add_comm 1, List.take_succ_cons, List.take_succ_cons, List.take_left' rfl]
    rw [e1]
    have e2 : full.length + (1 + (secOf e.compressed e.point).length + 1) = (full ++ varBytes e.written.1).length := by
      rw [hk]; simp; omega
    rw [e2, serialize_eq _ _ hts, C.bind_ok]
    unfold serialized
    simp only [List.drop_zero]
    rw [List.take_of_length_le (by omega)]
    have e3 : store (UInt8.ofNat (1 + e.der.length) :: (e.der ++ List.replicate (98 - e.der.length) 0) ++ [0]) (1 + e.der.length) [0x01] =
        .ok (UInt8.ofNat (1 + e.der.length) :: (e.der ++ [0x01]) ++ List.replicate (98 - e.der.length) 0) := by
      have : UInt8.ofNat (1 + e.der.length) :: (e.der ++ List.replicate (98 - e.der.length) (0 : UInt8)) ++ [0] =
          (UInt8.ofNat (1 + e.der.length) :: e.der) ++ (0 :: List.replicate (98 - e.der.length) 0) := by
        rw [List.cons_append, List.cons_append, List.append_assoc, ← List.replicate_succ', List.replicate_succ]
      rw [this]
      unfold store
      rw [if_pos (by simp; omega), List.take_left' (by simp; omega)]
      rw [List.drop_append, List.drop_eq_nil_of_le (by simp)]
      simp
    rw [e3, C.bind_ok]
    rw [emitRel_after _ _ _ _ (by simp; omega), C.bind_ok]
    have e4 : List.take (1 + e.der.length + 1) (UInt8.ofNat (1 + e.der.length) :: (e.der ++ [0x01]) ++ List.replicate (98 - e.der.length) 0) = varBytes e.written.2 := by
      rw [hv, List.take_left' (by simp; omega)]
    rw [e4, C.pure_eq]
    unfold pairBytes
    congr 2
    · rw [List.append_assoc]
    · simp only [List.length_append]
      rw [hv]
      simp
      omega
  · unfold pairBytes
    rw [hk, hv]
    simp
    omega

theorem emitSigs_after (cap : Option Nat) : ∀ {gs : List PartialSig} {es : List SigEntry} (full : Bytes), List.Forall₂ PartialSig.Holds gs es → (∀ e ∈ es, e.Ok) →
    emitSigs (Ser.after cap 0 full) 0 0 gs full.length = .ok (Ser.after cap 0 (full ++ (es.map SigEntry.written).flatMap pairBytes), (full ++ (es.map SigEntry.written).flatMap pairBytes).length) ∧
      ((es.map SigEntry.written).flatMap pairBytes).length = (gs.map fun g => 2 + g.pubkey.length + (2 + g.signature.length)).sum
  | [], [], full, _, _ => by simp [emitSigs]
  | g :: gs, e :: es, full, .cons h1 h2, he => by
    obtain ⟨a1, a2⟩ := emitSig_after cap full h1 (he e (List.mem_cons_self ..))
    obtain ⟨b1, b2⟩ := emitSigs_after cap (full ++ pairBytes e.written) h2 (fun x hx => he x (List.mem_cons_of_mem _ hx))
    constructor
    · unfold emitSigs
      rw [a1, C.bind_ok]
      dsimp only
      rw [b1]
      simp
    · simp only [List.map_cons, List.flatMap_cons, List.length_append, List.sum_cons]
      rw [a2, b2]

/-- The pairs written for section number `sec`. -/
def SecOk (p : PSBT) (sec : Nat) (m : List Pair) : Prop :=
  if 0 < sec ∧ sec < p.tx.txIns.length + 1 then
    ∃ im es, p.ins[sec - 1]? = some im ∧ List.Forall₂ PartialSig.Holds im.signatures es ∧ (∀ e ∈ es, e.Ok) ∧ m = es.map SigEntry.written
  else m = []

theorem emitSections_after (p : PSBT) (cap : Option Nat) : ∀ (maps : List (List Pair)) (sec : Nat) (full : Bytes), (∀ j (h : j < maps.length), SecOk p (sec + j) maps[j]) →
    ∃ extra, emitSections p 0 maps.length sec (Ser.after cap 0 full) 0 full.length = .ok (Ser.after cap 0 (full ++ mapsBytes maps), extra) ∧
      ((∀ c, cap = some c → (full ++ mapsBytes maps).length ≤ c) → extra = 0)
  | [], sec, full, _ => ⟨0, by simp [emitSections, mapsBytes], fun _ => rfl⟩
  | m :: maps, sec, full, h => by
    rw [List.length_cons]
    unfold emitSections
    have hb : mapsBytes (m :: maps) = m.flatMap pairBytes ++ ([0] ++ mapsBytes maps) := by
      unfold mapsBytes mapBytes
      rw [List.flatMap_cons, List.append_assoc]
    by_cases ha : (Ser.after cap 0 full).avail = true
    · rw [if_pos ha]
      have h0 := h 0 (by simp)
      rw [Nat.add_zero, List.getElem_cons_zero] at h0
      have hstep : p.emitPairs (Ser.after cap 0 full) 0 0 sec full.length = .ok (Ser.after cap 0 (full ++ m.flatMap pairBytes), (full ++ m.flatMap pairBytes).length) := by
        unfold emitPairs
        unfold SecOk at h0
        split at h0
        · rename_i hs
          obtain ⟨im, es, e1, e2, e3, rfl⟩ := h0
          rw [if_pos hs, e1]
          exact (emitSigs_after cap full e2 e3).1
        · rename_i hs
          rw [if_neg hs, h0]
          simp
      rw [hstep, C.bind_ok]
      dsimp only
      by_cases hav : (Ser.after cap 0 (full ++ m.flatMap pairBytes)).avail = true
      · rw [if_pos hav]
        have hp : (Ser.after cap 0 (full ++ m.flatMap pairBytes)).push [0] = Ser.after cap 0 (full ++ m.flatMap pairBytes ++ [0]) := by
          apply Ser.push_after
          rw [Ser.after_avail] at hav
          unfold window
          cases cap with
          | none => simp
          | some c =>
            have := hav c rfl
            dsimp only
            rw [List.drop_zero, List.drop_zero, List.take_of_length_le (by rw [List.length_append, List.length_singleton]; omega), List.take_of_length_le (by omega)]
        obtain ⟨x, i1, i2⟩ := emitSections_after p cap maps (sec + 1) (full ++ m.flatMap pairBytes ++ [0]) (fun j hj => by
          have := h (j + 1) (by simpa using hj)
          rwa [List.getElem_cons_succ, show sec + (j + 1) = sec + 1 + j by omega] at this)
        refine ⟨x, ?_, ?_⟩
        · rw [hp, show (full ++ m.flatMap pairBytes).length + 1 = (full ++ m.flatMap pairBytes ++ [0]).length from (List.length_append (bs := [0])).symm, i1, hb]
          simp only [List.append_assoc]
        · rw [hb]
          simpa only [List.append_assoc] using i2
      · rw [if_neg hav]
        refine ⟨0 + 1, ?_, ?_⟩
        · have e : Ser.after cap 0 (full ++ mapsBytes (m :: maps)) = Ser.after cap 0 (full ++ m.flatMap pairBytes) := by
            rw [hb, ← List.append_assoc, Ser.after_stuck hav]
          rw [e]
          cases maps with
          | nil => rfl
          | cons a b =>
            rw [List.length_cons]
            unfold emitSections
            rw [if_neg hav]
        · intro hc
          exfalso
          apply hav
          rw [Ser.after_avail]
          intro c hcc
          have := hc c hcc
          rw [hb] at this
          simp only [List.length_append, List.length_singleton] at this ⊢
          omega
    · rw [if_neg ha]
      exact ⟨0, by rw [Ser.after_stuck ha], fun _ => rfl⟩

/-- The loop that writes the transaction. -/
theorem emitTx_after (t : Tx) (x : Bytes) (cap : Option Nat) (full : Bytes) (hl : t.length = x.length) (h0 : 0 < x.length) (ht : ∀ c o, t.toStream c o = .ok (window c o x)) :
    emitTx t full.length 0 t.length (Ser.after cap 0 full) = .ok (Ser.after cap 0 (full ++ x)) := by
  obtain ⟨n, hn⟩ : ∃ n, t.length = n + 1 := ⟨t.length - 1, by omega⟩
  conv_lhs => rw [hn]
  unfold emitTx
  by_cases ha : (Ser.after cap 0 full).avail = true
  · have hw := Ser.after_whole ha
    rw [if_pos ⟨ha, by rw [hw]; omega⟩, Ser.emitObj_after cap 0 full x t.toStream _ _ rfl (by rw [hl]) ht, C.bind_ok, if_neg]
    · cases n with
      | zero => rfl
      | succ n =>
        unfold emitTx
        rw [if_neg]
        rintro ⟨h1, h2⟩
        rw [Ser.after_whole h1, List.length_append] at h2
        omega
    · rw [hw]
      intro h
      have h2 : (Ser.after cap 0 (full ++ x)).out = window cap 0 (full ++ x) := rfl
      rw [h2] at h
      rw [Ser.after_avail] at ha
      unfold window at h
      cases cap with
      | none => simp at h; rw [h] at h0; simp at h0
      | some c =>
        have := ha c rfl
        simp at h
        omega
  · rw [if_neg (fun h => ha h.1), Ser.after_stuck ha]

end PSBT

end UB
