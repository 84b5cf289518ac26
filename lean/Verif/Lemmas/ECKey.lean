import Verif.Model.ECKey
import Verif.Spec.Point
import Verif.Lemmas.EcdsaKeys
import Verif.Lemmas.Ser
import Verif.Props.Signature
import Verif.Props.Serialize

namespace UB
open Spec BN

attribute [local irreducible] secpP secpN BN.multiply BN.fastMod BN.mod BN.subtractmod BN.multK BN.addmod BN.inverse BN.lshift BN.subi BN.add
  BN.multHalf BN.cmov BN.isEqual BN.isZero BN.sqrt BN.subtract scalarMultiply pointMultiply CurvePoint.add readBE writeBE

theorem length_rawPoint (P : Pt) : (rawPoint P).length = 64 := by
  simp [rawPoint, Spec.length_beBytes]

theorem length_secOf (c : Bool) (P : Pt) : (secOf c P).length = if c then 33 else 65 := by
  unfold secOf secBytes
  cases c <;> simp [Spec.length_beBytes]

theorem isSec_secOf {c : Bool} {P : Pt} (h : P ≠ 0) : IsSec (secOf c P) c P := isSec_iff.mpr ⟨h, rfl⟩

theorem beBytes_inj {k a b : Nat} (ha : a < 256 ^ k) (hb : b < 256 ^ k) (h : beBytes k a = beBytes k b) : a = b := by
  have h1 := beNat_beBytes k a
  have h2 := beNat_beBytes k b
  rw [Nat.mod_eq_of_lt ha] at h1
  rw [Nat.mod_eq_of_lt hb] at h2
  rw [← h1, ← h2, h]

theorem p_lt_bytes : secpP < 256 ^ 32 := lt_of_lt_of_eq secpP_lt (by norm_num)

theorem eq_of_coords {P Q : Pt} (hP : P ≠ 0) (hQ : Q ≠ 0) (hx : xNat P = xNat Q) (hy : yNat P = yNat Q) : P = Q := by
  obtain ⟨x, y, h⟩ := exists_at hP
  obtain ⟨x', y', h'⟩ := exists_at hQ
  rw [xNat_at h, xNat_at h'] at hx
  rw [yNat_at h, yNat_at h'] at hy
  have ex := ZMod.val_injective _ hx
  have ey := ZMod.val_injective _ hy
  subst ex ey
  obtain ⟨a, rfl⟩ := h
  obtain ⟨b, rfl⟩ := h'
  rfl

theorem yNat_ne {P : Pt} (hP : P ≠ 0) : yNat P ≠ 0 := by
  obtain ⟨x, y, h⟩ := exists_at hP
  rw [yNat_at h]
  exact fun e => h.y_ne ((ZMod.val_eq_zero y).mp e)

theorem rawPoint_inj {P Q : Pt} (h : rawPoint P = rawPoint Q) : P = Q := by
  obtain ⟨h1, h2⟩ := List.append_inj h (by rw [Spec.length_beBytes, Spec.length_beBytes])
  have hx := beBytes_inj ((xNat_lt P).trans p_lt_bytes) ((xNat_lt Q).trans p_lt_bytes) h1
  have hy := beBytes_inj ((yNat_lt P).trans p_lt_bytes) ((yNat_lt Q).trans p_lt_bytes) h2
  by_cases hP : P = 0
  · subst hP
    by_contra hQ
    exact yNat_ne (Ne.symm hQ) hy.symm
  · by_cases hQ : Q = 0
    · subst hQ
      exact absurd hy (yNat_ne hP)
    · exact eq_of_coords hP hQ hx hy

theorem rawPoint_zero : rawPoint 0 = zeros 64 := by
  have h1 : xNat 0 = 0 := rfl
  have h2 : yNat 0 = 0 := rfl
  rw [rawPoint, h1, h2]
  decide +kernel

theorem last_rawPoint (P : Pt) : (rawPoint P).getD 63 0 = UInt8.ofNat (yNat P % 256) := by
  have h : ∀ n, beBytes 32 n = beBytes 31 (n / 256) ++ [UInt8.ofNat (n % 256)] := by
    intro n
    unfold beBytes
    rw [show leBytes 32 n = UInt8.ofNat (n % 256) :: leBytes 31 (n / 256) from rfl, List.reverse_cons]
  rw [rawPoint, h (yNat P), ← List.append_assoc, List.getD_eq_getElem?_getD, List.getElem?_append_right (by simp [Spec.length_beBytes])]
  simp [Spec.length_beBytes]

theorem parity_last (P : Pt) : (((rawPoint P).getD 63 0) &&& 0x01 == 0) = (yNat P % 2 == 0) ∧
    0x02 + (((rawPoint P).getD 63 0) &&& 0x01) = if yNat P % 2 = 1 then 0x03 else 0x02 := by
  rw [last_rawPoint]
  have hb : ∀ b : UInt8, ((b &&& 0x01 == 0) = (b.toNat % 2 == 0)) ∧ 0x02 + (b &&& 0x01) = if b.toNat % 2 = 1 then 0x03 else 0x02 := by
    apply forall_byte; decide +kernel
  have hm : (UInt8.ofNat (yNat P % 256)).toNat % 2 = yNat P % 2 := by
    rw [UInt8.toNat_ofNat']
    omega
  have := hb (UInt8.ofNat (yNat P % 256))
  rw [hm] at this
  exact this

namespace ECPoint

/-- The object holds the point `P`. -/
def Holds (p : ECPoint) (P : Pt) : Prop := p.point = rawPoint P

/-- What `to_stream` writes. -/
def bytes (p : ECPoint) : Bytes :=
  (if p.compressed then 0x02 + ((p.point.getD 63 0) &&& 0x01) else 0x04) :: p.point.take (p.length - 1)

theorem toStream_spec (p : ECPoint) (h : p.point.length = 64) (cap : Option Nat) (off : Nat) :
    p.toStream cap off = .ok (window cap off p.bytes) := by
  unfold toStream
  have hl : p.length - 1 ≤ p.point.length := by unfold length; split_ifs <;> omega
  have hl' : p.length = 1 + (p.length - 1) := by unfold length; split_ifs <;> omega
  have he : entry p.point 63 = .ok (p.point.getD 63 0) := by
    unfold entry
    rw [List.getD_eq_getElem?_getD, List.getElem?_eq_getElem (by omega)]
    rfl
  by_cases hc : cap = some 0
  · subst hc
    simp [Ser.avail, window]
  · rw [if_neg (by simpa [Ser.avail] using hc)]
    simp only [he, C.bind_ok]
    have key : ∀ pre : UInt8, (if off = 0 then (⟨cap, []⟩ : Ser).push [pre] else ⟨cap, []⟩) = Ser.after cap off [pre] := by
      intro pre
      unfold Ser.after Ser.push window
      split_ifs with h0
      · subst h0
        cases cap with
        | none => simp
        | some c =>
          obtain ⟨c, rfl⟩ : ∃ k, c = k + 1 := ⟨c - 1, by simp at hc; omega⟩
          simp
      · obtain ⟨o, rfl⟩ : ∃ k, off = k + 1 := ⟨off - 1, by omega⟩
        cases cap <;> simp
    rw [key, Ser.emit_after' cap off _ p.point (p.length - 1) hl 1 p.length rfl (by simpa using hl')]
    simp only [C.bind_ok, C.pure_eq]
    rfl

theorem Holds.length {p : ECPoint} {P : Pt} (h : p.Holds P) : p.point.length = 64 := by rw [h, length_rawPoint]

theorem bytes_spec {p : ECPoint} {P : Pt} (h : p.Holds P) : p.bytes = secOf p.compressed P := by
  unfold bytes secOf secBytes length
  rw [h]
  cases hc : p.compressed
  · simp only [Bool.false_eq_true, if_false]
    rw [List.take_of_length_le (by rw [length_rawPoint])]
    rfl
  · simp only [if_true, (parity_last P).2]
    rw [rawPoint, List.take_left' (by rw [Spec.length_beBytes])]

theorem length_bytes {p : ECPoint} (h : p.point.length = 64) : p.bytes.length = p.length := by
  unfold bytes length
  cases p.compressed <;> simp [h]

theorem sec_eq (p : ECPoint) (h : p.point.length = 64) (n : Nat) :
    p.sec n = .ok (min n p.length, p.bytes.take n ++ zeros (n - p.length)) := by
  unfold sec
  rw [serialize_eq _ p.bytes (p.toStream_spec h)]
  simp only [serialized, List.drop_zero, List.length_take, length_bytes h]
  congr 3
  unfold zeros
  congr 1
  omega

theorem sec65 (p : ECPoint) (h : p.point.length = 64) : p.sec 65 = .ok (p.length, p.bytes ++ zeros (65 - p.length)) := by
  have hl : p.length ≤ 65 := by unfold length; split_ifs <;> omega
  rw [sec_eq p h, List.take_of_length_le (by rw [length_bytes h]; exact hl), Nat.min_eq_right hl]

/-- `isValid` of an object that has not failed is the check of its encoding. -/
theorem isValid_bytes (p : ECPoint) (h : p.point.length = 64) (hs : p.status = .done) :
    p.isValid = (readPubkey (p.bytes ++ zeros (65 - p.length)) CurvePoint.infinity).bind fun r => .ok r.1 := by
  unfold isValid
  rw [if_neg (by simp [hs]), sec65 p h]
  rfl

theorem isValid_holds {p : ECPoint} {P : Pt} (h : p.Holds P) (h0 : P ≠ 0) (hs : p.status = .done) : p.isValid = .ok true := by
  rw [isValid_bytes p h.length hs, bytes_spec h]
  obtain ⟨q, e, -⟩ := readPubkey_complete (isSec_secOf h0) (zeros (65 - p.length)) CurvePoint.infinity
  rw [e]
  rfl

/-- Reading the encoding of a point, when all its bytes are there. -/
theorem finish_holds {p : ECPoint} {P : Pt} (junk : Bytes) (h0 : P ≠ 0) (hl : p.point.length = 64) (c : UInt8) (t : Bytes)
    (hb : secOf p.compressed P = c :: t) (ht : p.point.take (p.length - 1) = t) :
    finish junk c p = .ok { p with point := rawPoint P, status := .done } := by
  unfold finish
  have hv : isValid { p with point := rawPoint P, status := .done } = .ok true := isValid_holds (P := P) rfl h0 rfl
  cases hc : p.compressed
  · have hp : p.point = rawPoint P := by
      rw [hc] at hb
      simp only [secOf, secBytes, Bool.false_eq_true, if_false] at hb
      have := (List.cons.inj hb).2
      rw [length, hc] at ht
      simp only [Bool.false_eq_true, if_false] at ht
      rw [List.take_of_length_le (by omega)] at ht
      rw [ht, ← this]; rfl
    simp only [Bool.false_eq_true, if_false, C.bind_ok, C.pure_eq]
    have e : ({ p with status := .done } : ECPoint) = { p with point := rawPoint P, status := .done } := by rw [← hp]
    rw [hc] at e hv
    rw [e, hv]
    rfl
  · rw [hc] at hb hv
    have hx : load p.point 0 32 = .ok t := by
      rw [length, hc] at ht
      simp only [if_true] at ht
      unfold load
      rw [if_pos (by omega), List.drop_zero]
      exact congrArg _ ht
    simp only [if_true, hx, C.bind_ok]
    have := uncompressPubkey_spec (isSec_secOf (c := true) h0) [] junk
    rw [List.append_nil, hb] at this
    rw [this]
    have hload : load (secBytes false (xNat P) (yNat P)) 1 64 = .ok (rawPoint P) := by
      have := load_mid [0x04] (rawPoint P) []
      rw [length_rawPoint, List.append_nil] at this
      exact this
    simp only [C.bind_ok, hload, C.pure_eq]
    rw [hv]
    rfl

theorem put_bytes (q : Bytes) (k : Nat) (c : Bytes) (hq : q.length = 64) (hk : 1 ≤ k) (hc : k - 1 + c.length ≤ 64) :
    ∃ q', (if c = [] then C.ok q else if k = 0 then .ub else store q (k - 1) c) = .ok q' ∧ q'.length = 64 ∧
      q'.take (k - 1 + c.length) = q.take (k - 1) ++ c := by
  by_cases h : c = []
  · subst h
    exact ⟨q, by simp, hq, by simp⟩
  · rw [if_neg h, if_neg (by omega)]
    unfold store
    rw [if_pos (by omega)]
    refine ⟨_, rfl, by simp; omega, ?_⟩
    rw [List.take_left' (by simp; omega)]

/-- `from_stream` reads less than what is missing. -/
theorem body_part (junk : Bytes) (fb : UInt8) (p : ECPoint) (br toRead : Nat) (c : Bytes) (hq : p.point.length = 64)
    (hk : 1 ≤ p.bytesParsed + br) (hc : p.bytesParsed + br - 1 + c.length ≤ 64) (hr : c.length < toRead) :
    ∃ q, body junk fb p br toRead { bytes := c } = ({ p with point := q, bytesParsed := p.bytesParsed + (br + c.length) }, br + c.length, { bytes := [] }) ∧
      q.length = 64 ∧ q.take (p.bytesParsed + br - 1 + c.length) = p.point.take (p.bytesParsed + br - 1) ++ c := by
  obtain ⟨q, e, h1, h2⟩ := put_bytes p.point (p.bytesParsed + br) c hq hk hc
  refine ⟨q, ?_, h1, h2⟩
  unfold body PStream.readN
  simp only [Bool.false_eq_true, if_false, List.append_nil]
  rw [List.take_of_length_le (by omega), List.drop_of_length_le (by omega), e]
  simp only [if_neg (show ¬ toRead = c.length by omega)]

/-- `from_stream` reads everything that is missing. -/
theorem body_all (junk : Bytes) (fb : UInt8) (p : ECPoint) (br : Nat) (c rest : Bytes) (hq : p.point.length = 64)
    (hk : 1 ≤ p.bytesParsed + br) (hc : p.bytesParsed + br - 1 + c.length ≤ 64) :
    ∃ q, body junk fb p br c.length { bytes := c ++ rest } = (match finish junk fb { p with point := q } with
        | .ub => ({ p with point := q, status := .ub }, 0, { bytes := rest })
        | .ok p => ({ p with bytesParsed := p.bytesParsed + (br + c.length) }, br + c.length, { bytes := rest })) ∧
      q.length = 64 ∧ q.take (p.bytesParsed + br - 1 + c.length) = p.point.take (p.bytesParsed + br - 1) ++ c := by
  obtain ⟨q, e, h1, h2⟩ := put_bytes p.point (p.bytesParsed + br) c hq hk hc
  refine ⟨q, ?_, h1, h2⟩
  unfold body PStream.readN
  simp only [Bool.false_eq_true, if_false, List.append_nil]
  rw [List.take_left, List.drop_left, e]
  simp only [if_true]
  cases finish junk fb { p with point := q } <;> rfl

/-- The object after the bytes `m` of an encoding have arrived, but not all of them. -/
structure Got (p : ECPoint) (fb : UInt8) (m : Bytes) : Prop where
  status : p.status = .incomplete
  point : p.point.length = 64
  parsed : p.bytesParsed = m.length
  bytes : ∃ t, m = fb :: t ∧ p.point.take t.length = t
  prefixed : fb = 0x02 ∨ fb = 0x03 ∨ fb = 0x04
  compressed : p.compressed = (fb != 0x04)
  short : m.length < p.length

/-- The object after all bytes of the encoding of the point `P` have arrived. -/
structure Has (p : ECPoint) (c : Bool) (P : Pt) : Prop where
  status : p.status = .done
  point : p.Holds P
  compressed : p.compressed = c
  parsed : p.bytesParsed = p.length

theorem length_le (p : ECPoint) : p.length ≤ 65 := by unfold length; split_ifs <;> omega

theorem got_more {p : ECPoint} {fb : UInt8} {m c : Bytes} (junk : Bytes) (h : p.Got fb m) (hc : m.length + c.length < p.length) :
    ∃ p', fromStream junk fb p { bytes := c } = ((p', fb), c.length, { bytes := [] }) ∧ p'.Got fb (m ++ c) := by
  obtain ⟨h1, h2, h3, ⟨t, rfl, h4⟩, h5, h6, h7⟩ := h
  have hl := length_le p
  simp only [List.length_cons] at h3 h7 hc
  unfold fromStream
  rw [if_neg (by simp [h1])]
  simp only [h1, reduceCtorEq, if_false]
  rw [if_pos (by omega)]
  obtain ⟨q, e, q1, q2⟩ := body_part junk fb { p with status := .incomplete } 0 (p.length - p.bytesParsed) c h2 (by simp; omega) (by simp; omega) (by omega)
  simp only at e q2
  have e' : ({ p with status := .incomplete } : ECPoint).length = p.length := rfl
  rw [e', e]
  simp only [Nat.zero_add]
  refine ⟨_, rfl, ⟨rfl, q1, by simp; omega, ⟨t ++ c, rfl, ?_⟩, h5, h6, ?_⟩⟩
  · simp only [List.length_append]
    rw [h3] at q2
    simpa [h4] using q2
  · simp only [List.length_append, List.length_cons]
    have : ({ status := Status.incomplete, bytesParsed := p.bytesParsed + c.length, point := q, compressed := p.compressed } : ECPoint).length = p.length := rfl
    rw [this]; omega

/-- The last bytes of the encoding of a point arrive. -/
theorem got_last {p : ECPoint} {fb : UInt8} {m c rest : Bytes} {P : Pt} (junk : Bytes) (h : p.Got fb m) (h0 : P ≠ 0)
    (hb : m ++ c = secOf p.compressed P) :
    ∃ p', fromStream junk fb p { bytes := c ++ rest } = ((p', fb), c.length, { bytes := rest }) ∧ p'.Has p.compressed P := by
  have hlen : m.length + c.length = p.length := by
    rw [← List.length_append, hb, length_secOf]; rfl
  obtain ⟨h1, h2, h3, ⟨t, rfl, h4⟩, h5, h6, h7⟩ := h
  have hl := length_le p
  simp only [List.length_cons] at h3 h7 hlen
  unfold fromStream
  rw [if_neg (by simp [h1])]
  simp only [h1, reduceCtorEq, if_false]
  rw [if_pos (by omega)]
  have e' : ({ p with status := .incomplete } : ECPoint).length = p.length := rfl
  rw [e', show p.length - p.bytesParsed = c.length by omega]
  obtain ⟨q, e, q1, q2⟩ := body_all junk fb { p with status := .incomplete } 0 c rest h2 (by simp; omega) (by simp; omega)
  rw [e]
  simp only at q2
  rw [h3] at q2
  have hf := finish_holds (p := { p with status := .incomplete, point := q }) junk h0 q1 fb (t ++ c) (by rw [← hb]; rfl)
    (by
      have : ({ p with status := .incomplete, point := q } : ECPoint).length = p.length := rfl
      rw [this, ← hlen]
      rw [show t.length + 1 + c.length - 1 = t.length + 1 + 0 - 1 + c.length by omega, q2, show t.length + 1 + 0 - 1 = t.length by omega, h4])
  simp only at hf
  rw [hf]
  simp only [Nat.zero_add]
  refine ⟨_, rfl, ⟨rfl, rfl, rfl, ?_⟩⟩
  have : ({ status := Status.done, bytesParsed := p.bytesParsed + c.length, point := rawPoint P, compressed := p.compressed } : ECPoint).length = p.length := rfl
  rw [this]
  simp only
  omega

theorem fromStream_start {p : ECPoint} (junk : Bytes) (fb b : UInt8) (c : Bytes) (hs : p.status = .done) :
    fromStream junk fb p { bytes := b :: c } = if b < 0x02 ∨ b > 0x04 then (({ p with status := .failed, bytesParsed := 1 }, fb), 1, { bytes := c })
      else
        let r := body junk b { p with status := .incomplete, bytesParsed := 0, compressed := b != 0x04 } 1 (if b = 0x04 then 64 else 32) { bytes := c }
        ((r.1, b), r.2) := by
  unfold fromStream
  rw [if_neg (by simp [hs])]
  simp only [hs]
  rfl

/-- The first bytes of an encoding arrive. -/
theorem got_first {p : ECPoint} (junk : Bytes) (fb' fb : UInt8) (c : Bytes) (hs : p.status = .done) (hp : p.point.length = 64)
    (hpre : fb = 0x02 ∨ fb = 0x03 ∨ fb = 0x04) (hc : c.length < if fb = 0x04 then 64 else 32) :
    ∃ p', fromStream junk fb' p { bytes := fb :: c } = ((p', fb), c.length + 1, { bytes := [] }) ∧ p'.Got fb (fb :: c) := by
  rw [fromStream_start junk fb' fb c hs, if_neg (by rcases hpre with rfl | rfl | rfl <;> decide)]
  have hle : c.length < 64 := by split_ifs at hc <;> omega
  obtain ⟨q, e, q1, q2⟩ := body_part junk fb { p with status := .incomplete, bytesParsed := 0, compressed := fb != 0x04 } 1 (if fb = 0x04 then 64 else 32) c hp
    (by simp) (by simp; omega) hc
  simp only at e q2
  rw [e]
  simp only [Nat.zero_add, Nat.add_comm 1]
  refine ⟨_, rfl, ⟨rfl, q1, by simp, ⟨c, rfl, by simpa using q2⟩, hpre, rfl, ?_⟩⟩
  simp only [length, List.length_cons]
  rcases hpre with rfl | rfl | rfl <;> simp at hc ⊢ <;> omega

theorem secOf_head (c : Bool) (P : Pt) : ∃ fb t, secOf c P = fb :: t ∧ (fb = 0x02 ∨ fb = 0x03 ∨ fb = 0x04) ∧ c = (fb != 0x04) := by
  unfold secOf secBytes
  cases c
  · exact ⟨_, _, rfl, by simp, by decide⟩
  · by_cases h : yNat P % 2 = 1
    · exact ⟨0x03, _, by rw [if_pos rfl, if_pos h], by simp, by decide⟩
    · exact ⟨0x02, _, by rw [if_pos rfl, if_neg h], by simp, by decide⟩

/-- A whole encoding arrives at once, other bytes may follow. -/
theorem read_all {p : ECPoint} (junk : Bytes) (fb : UInt8) (c : Bool) {P : Pt} (rest : Bytes) (hs : p.status = .done) (hp : p.point.length = 64) (h0 : P ≠ 0) :
    ∃ p', fromStream junk fb p { bytes := secOf c P ++ rest } = ((p', (secOf c P).headD 0), (if c then 33 else 65), { bytes := rest }) ∧ p'.Has c P := by
  obtain ⟨f, t, e, hf, hc⟩ := secOf_head c P
  have hl := length_secOf c P
  rw [e] at hl ⊢
  rw [List.cons_append, List.headD_cons, fromStream_start junk fb f _ hs, if_neg (by rcases hf with rfl | rfl | rfl <;> decide)]
  have ht : (if f = 0x04 then 64 else 32) = t.length := by
    simp only [List.length_cons] at hl
    rcases hf with rfl | rfl | rfl <;> subst hc <;> simp at hl ⊢ <;> omega
  rw [ht]
  obtain ⟨q, e', q1, q2⟩ := body_all junk f { p with status := .incomplete, bytesParsed := 0, compressed := f != 0x04 } 1 t rest hp (by simp)
    (by simp; rw [← ht]; split_ifs <;> omega)
  rw [e']
  have hlen : ({ p with status := .incomplete, bytesParsed := 0, compressed := f != 0x04, point := q } : ECPoint).length = 1 + t.length := by
    simp only [length, ← hc]; rw [← hl, List.length_cons]; omega
  have hfin := finish_holds (p := { p with status := .incomplete, bytesParsed := 0, compressed := f != 0x04, point := q }) junk h0 q1 f t
    (by simp only [← hc]; exact e) (by rw [hlen]; simpa using q2)
  simp only at hfin
  rw [hfin]
  simp only
  rw [← hl, List.length_cons, Nat.add_comm t.length 1]
  refine ⟨_, rfl, ⟨rfl, rfl, hc.symm, ?_⟩⟩
  simp only [Nat.zero_add]
  rw [← hlen]
  rfl

end ECPoint
end UB
