import Verif.Lemmas.ECScalar
import Verif.Props.Ecdsa

/-
C36 public key serialization, C62 order of public keys, C64 point arithmetic.
-/

namespace UB
open Spec BN

attribute [local irreducible] secpP secpN BN.multiply BN.fastMod BN.mod BN.subtractmod BN.multK BN.addmod BN.inverse BN.lshift BN.subi BN.add
  BN.multHalf BN.cmov BN.isEqual BN.isZero BN.sqrt BN.subtract scalarMultiply pointMultiply CurvePoint.add readBE writeBE BN.addi

namespace ECPoint

/-! ### C36 -/

/-- C36: a public key is written as the SEC 1 encoding of its point, to a stream of any capacity and from any offset. -/
theorem C36_toStream (p : ECPoint) (P : Pt) (h : p.Holds P) (cap : Option Nat) (off : Nat) :
    p.toStream cap off = .ok (window cap off (secOf p.compressed P)) := by
  rw [toStream_spec p h.length, bytes_spec h]

/-- C36: `sec(arr, len)` writes the encoding, as much of it as fits, and fills up with zeros. -/
theorem C36_sec (p : ECPoint) (P : Pt) (h : p.Holds P) (n : Nat) :
    p.sec n = .ok (min n p.length, (secOf p.compressed P).take n ++ zeros (n - p.length)) := by
  rw [sec_eq p h.length, bytes_spec h]

example : generator.sec 40 = .ok (33, secBytes true secpGx secpGy ++ zeros 7) := by
  have := C36_sec generator G holds_generator 40
  have e : secOf true G = secBytes true secpGx secpGy := (isSec_iff.mp (isSec_G true)).2.symm
  have l : (secOf true G).length = 33 := length_secOf true G
  rw [show generator.compressed = true from rfl, List.take_of_length_le (by rw [l]; omega), e] at this
  exact this

/-- C36: the encoding of any point, compressed or not, parses back into the same point, whatever the object held before, whatever is on
the stack and in `first_byte`; exactly the encoding is consumed. -/
theorem C36_roundtrip (p : ECPoint) (junk : Bytes) (fb : UInt8) (c : Bool) (P : Pt) (rest : Bytes) (hs : p.status = .done)
    (hp : p.point.length = 64) (h0 : P ≠ 0) :
    ∃ p', fromStream junk fb p { bytes := secOf c P ++ rest } = ((p', (secOf c P).headD 0), (if c then 33 else 65), { bytes := rest }) ∧
      p'.status = .done ∧ p'.Holds P ∧ p'.compressed = c ∧ p'.isValid = .ok true ∧ p'.sec (if c then 33 else 65) = .ok ((if c then 33 else 65), secOf c P) := by
  obtain ⟨p', e, h⟩ := read_all junk fb c rest hs hp h0
  refine ⟨p', e, h.status, h.point, h.compressed, isValid_holds h.point h0 h.status, ?_⟩
  have hl := length_secOf c P
  rw [C36_sec p' P h.point, h.compressed]
  have hl' : p'.length = if c then 33 else 65 := by rw [length, h.compressed]
  rw [hl', Nat.min_self, Nat.sub_self, List.take_of_length_le hl.le]
  simp [zeros]

example : ∃ (p : ECPoint) (P : Pt), p.status = .done ∧ p.point.length = 64 ∧ P ≠ 0 := ⟨{}, G, rfl, rfl, G_ne_zero⟩

/-- C36: the generator in the source, given by its compressed encoding, is the base point of the curve. -/
theorem C36_generator (junk : Bytes) : (fromSec junk {} (secBytes true secpGx secpGy)).1 = generator := by
  obtain ⟨p', e, h⟩ := fromSec_secOf (p := {}) junk true (P := G) [] rfl rfl G_ne_zero
  have e' : secOf true G = secBytes true secpGx secpGy := (isSec_iff.mp (isSec_G true)).2.symm
  rw [List.append_nil, e'] at e
  rw [e]
  obtain ⟨h1, h2, h3, h4⟩ := h
  obtain ⟨a, b, c, d⟩ := p'
  simp only at h1 h3
  subst h1 h3
  have h4' : b = 33 := h4
  have h2' : c = generator.point := h2.trans rawPoint_G
  rw [h4', h2']
  rfl

/-- Handing the pieces of a byte string to `from_stream` one after the other. -/
def feed (junk : Bytes) : ECPoint × UInt8 → List Bytes → ECPoint × UInt8
  | s, [] => s
  | s, c :: cs => feed junk (fromStream junk s.2 s.1 { bytes := c }).1 cs

theorem feed_got (junk : Bytes) (p : ECPoint) (fb : UInt8) (m : Bytes) (cs : List Bytes) (P : Pt) (h : p.Got fb m) (h0 : P ≠ 0)
    (hc : ∀ c ∈ cs, c ≠ []) (hb : m ++ cs.flatten = secOf p.compressed P) : (feed junk (p, fb) cs).1.Has p.compressed P := by
  induction cs generalizing p m with
  | nil =>
    have := h.short
    rw [List.flatten_nil, List.append_nil] at hb
    rw [hb, length_secOf] at this
    exact absurd this (by unfold length; omega)
  | cons c cs ih =>
    rw [List.flatten_cons] at hb
    have hl : m.length + (c.length + cs.flatten.length) = p.length := by
      have := congrArg List.length hb
      rw [length_secOf, List.length_append, List.length_append] at this
      exact this
    unfold feed
    cases cs with
    | nil =>
      rw [List.flatten_nil, List.append_nil] at hb
      obtain ⟨p', e, h'⟩ := got_last junk (rest := []) h h0 hb
      rw [List.append_nil] at e
      rw [e]
      exact h'
    | cons d cs =>
      have hd : 0 < d.length := List.length_pos_iff.mpr (hc d (by simp))
      simp only [List.flatten_cons, List.length_append] at hl
      obtain ⟨p', e, h'⟩ := got_more (c := c) junk h (by omega)
      rw [e]
      have hcomp : p'.compressed = p.compressed := by rw [h'.compressed, h.compressed]
      rw [← hcomp]
      refine ih p' (m ++ c) h' (fun x hx => hc x (List.mem_cons_of_mem _ hx)) ?_
      rw [hcomp, ← hb, List.append_assoc]

/-- C36: an encoding arriving in any pieces is read back exactly (if no other public key is parsed in between: see
`C36_interleaved`). -/
theorem C36_pieces (p : ECPoint) (junk : Bytes) (fb : UInt8) (c : Bool) (P : Pt) (cs : List Bytes) (hs : p.status = .done)
    (hp : p.point.length = 64) (h0 : P ≠ 0) (hc : ∀ x ∈ cs, x ≠ []) (hcs : cs.flatten = secOf c P) :
    (feed junk (p, fb) cs).1.status = .done ∧ (feed junk (p, fb) cs).1.Holds P ∧ (feed junk (p, fb) cs).1.compressed = c := by
  obtain ⟨f, t, e, hf, hcf⟩ := secOf_head c P
  have hl := length_secOf c P
  have key : (feed junk (p, fb) cs).1.Has c P := by
    cases cs with
    | nil => rw [e] at hcs; simp at hcs
    | cons d cs =>
      unfold feed
      cases cs with
      | nil =>
        simp only [List.flatten_cons, List.flatten_nil, List.append_nil] at hcs
        obtain ⟨p', e', h'⟩ := read_all junk fb c [] hs hp h0
        rw [List.append_nil] at e'
        rw [hcs, e']
        exact h'
      | cons d' cs =>
        have hd : 0 < d.length := List.length_pos_iff.mpr (hc d (by simp))
        have hd' : 0 < d'.length := List.length_pos_iff.mpr (hc d' (by simp))
        obtain ⟨b, d, rfl⟩ : ∃ b d'', d = b :: d'' := by
          cases d with
          | nil => simp at hd
          | cons b d => exact ⟨b, d, rfl⟩
        rw [e, List.flatten_cons, List.cons_append] at hcs
        obtain ⟨rfl, ht⟩ := List.cons.inj hcs
        rw [e, ← ht] at hl
        simp only [List.flatten_cons, List.length_cons, List.length_append] at hl
        obtain ⟨p', e', h'⟩ := got_first (p := p) junk fb b d hs hp hf (by
          rcases hf with rfl | rfl | rfl <;> subst hcf <;> simp at hl ⊢ <;> omega)
        rw [e']
        have hcomp : p'.compressed = c := by rw [h'.compressed, hcf]
        have := feed_got junk p' b (b :: d) (d' :: cs) P h' h0 (fun x hx => hc x (List.mem_cons_of_mem _ hx))
          (by rw [hcomp, e, ← ht]; rfl)
        rw [hcomp] at this
        exact this
  exact ⟨key.status, key.point, key.compressed⟩

example : ∃ cs : List Bytes, cs.length = 3 ∧ (∀ x ∈ cs, x ≠ []) ∧ cs.flatten = secOf true G := by
  obtain ⟨f, t, e, -⟩ := secOf_head true G
  have hl := length_secOf true G
  rw [e] at hl ⊢
  refine ⟨[[f], t.take 10, t.drop 10], rfl, ?_, by simp⟩
  intro x hx
  simp only [List.length_cons] at hl
  simp only [List.mem_cons, List.not_mem_nil, or_false] at hx
  rcases hx with rfl | rfl | rfl
  · simp
  · exact List.ne_nil_of_length_pos (by simp at hl ⊢; omega)
  · exact List.ne_nil_of_length_pos (by simp at hl ⊢; omega)

/-- The 32 bytes `x` are not the abscissa of a point. -/
def NoPoint (x : Bytes) : Prop := ∀ P : Pt, P ≠ 0 → x ≠ beBytes 32 (xNat P)

theorem noPoint_of_large {x : Bytes} (h : secpP ≤ beNat x) : NoPoint x := by
  rintro P - rfl
  rw [beNat_beBytes32 ((xNat_lt P).trans secpP_lt)] at h
  have := xNat_lt P
  omega

theorem secOf_split (b : Bytes) (fb : UInt8) (t : Bytes) {c : Bool} {P : Pt} (hb : b = fb :: t) (h : IsSec (b.take (if c then 33 else 65)) c P) :
    P ≠ 0 ∧ c = (fb != 0x04) ∧ secOf c P = fb :: t.take (if c then 32 else 64) := by
  obtain ⟨h0, e⟩ := isSec_iff.mp h
  obtain ⟨f, u, e', -, hc⟩ := secOf_head c P
  subst hb
  have e2 : fb :: t.take (if c then 32 else 64) = secOf c P := by
    rw [← show _ = secOf c P from e]
    cases c <;> rfl
  rw [e'] at e2
  obtain ⟨rfl, e3⟩ := List.cons.inj e2
  exact ⟨h0, hc, by rw [e', e3]⟩

/-- What `isValid` accepts is the encoding of a point. -/
theorem isValid_sound (q : ECPoint) (hq : q.point.length = 64) (hs : q.status = .done) (hv : q.isValid = .ok true) :
    ∃ P, P ≠ 0 ∧ secOf q.compressed P = q.bytes := by
  rw [isValid_bytes q hq hs] at hv
  match hr : readPubkey (q.bytes ++ zeros (65 - q.length)) CurvePoint.infinity with
  | .ub => rw [hr] at hv; simp [C.bind] at hv
  | .ok (b, r) =>
    rw [hr] at hv
    simp only [C.bind, C.ok.injEq] at hv
    subst hv
    obtain ⟨P, c, h0, -, hsec⟩ := readPubkey_sound hr
    obtain ⟨-, hc, e⟩ := secOf_split _ _ _ rfl (by rw [bytes, List.cons_append] at hsec; exact hsec)
    refine ⟨P, h0, ?_⟩
    have hcc : c = q.compressed := by
      rw [hc]
      cases q.compressed
      · rw [if_neg Bool.false_ne_true]; decide
      · have : ∀ b : UInt8, ((0x02 + (b &&& 0x01)) != 0x04) = true := by apply forall_byte; decide +kernel
        exact this _
    rw [← hcc, e, bytes, ← hcc]
    have : q.length - 1 = if c then 32 else 64 := by rw [length, ← hcc]; cases c <;> rfl
    rw [this, List.take_append_of_le_length (by simp; rw [hq]; cases c <;> simp), List.take_take, Nat.min_self]

theorem finish_sound {p p' : ECPoint} {junk : Bytes} {fb : UInt8} (hp : p.point.length = 64) (hf : fb = 0x02 ∨ fb = 0x03 ∨ fb = 0x04)
    (hc : p.compressed = (fb != 0x04)) (hj : NoPoint ((junk.drop 1).take 32)) (h : finish junk fb p = .ok p') (hd : p'.status = .done) :
    ∃ P, P ≠ 0 ∧ secOf p.compressed P = fb :: p.point.take (p.length - 1) := by
  cases hcc : p.compressed
  · unfold finish at h
    simp only [hcc, Bool.false_eq_true, if_false, C.bind_ok, C.pure_eq] at h
    match hv : isValid { p with status := .done } with
    | .ub => rw [hcc] at hv; rw [hv] at h; simp at h
    | .ok false =>
      rw [hcc] at hv; rw [hv] at h
      simp only [C.bind_ok, Bool.false_eq_true, if_false, C.ok.injEq] at h
      subst h
      simp at hd
    | .ok true =>
      obtain ⟨P, h0, e⟩ := isValid_sound { p with status := .done } hp rfl hv
      refine ⟨P, h0, ?_⟩
      have hfb : fb = 0x04 := by
        rw [hcc] at hc
        simpa using hc.symm
      simp only [bytes, hcc, Bool.false_eq_true, if_false] at e
      rw [e, hfb]
      simp only [length, hcc]
  · unfold finish at h
    have hx : load p.point 0 32 = .ok (p.point.take 32) := by unfold load; rw [if_pos (by omega), List.drop_zero]
    simp only [hcc, if_true, hx, C.bind_ok] at h
    unfold uncompressPubkey at h
    match hr : readPubkey (fb :: p.point.take 32) CurvePoint.infinity with
    | .ub => rw [hr] at h; simp at h
    | .ok (true, r) =>
      obtain ⟨P, c, h0, -, hsec⟩ := readPubkey_sound hr
      obtain ⟨-, hc', e⟩ := secOf_split _ _ _ rfl hsec
      refine ⟨P, h0, ?_⟩
      have : c = true := by rw [hc', ← hc, hcc]
      subst this
      rw [e, length, hcc]
      simp only [if_true]
      rw [List.take_take, Nat.min_self]
    | .ok (false, r) =>
      exfalso
      rw [hr] at h
      simp only [C.bind_ok, Bool.false_eq_true, if_false, C.pure_eq] at h
      unfold load at h
      split_ifs at h with hlen
      swap
      · simp at h
      simp only [C.bind_ok] at h
      match hv : isValid { p with point := List.take 64 (List.drop 1 junk), status := .done } with
      | .ub => rw [hcc] at hv; rw [hv] at h; simp at h
      | .ok false =>
        rw [hcc] at hv; rw [hv] at h
        simp only [C.bind_ok, Bool.false_eq_true, if_false, C.ok.injEq] at h
        subst h
        simp at hd
      | .ok true =>
        obtain ⟨P, h0, e⟩ := isValid_sound _ (by simp; omega) rfl hv
        simp only [bytes, hcc, length, if_true, secOf, secBytes] at e
        have e2 := (List.cons.inj e).2
        rw [List.take_take] at e2
        exact hj P h0 e2.symm

/-- C36: what is accepted is the encoding of a point on the curve, and the object holds this point.
Missing for the full claim: the condition on `junk`, the uninitialised array in `from_stream`, which cannot be dropped
(`C36_invalid_accepted`). -/
theorem C36_accepts_only_points_partial (p p' : ECPoint) (junk arr : Bytes) (n : Nat) (hs : p.status = .done) (hp : p.point.length = 64)
    (hj : NoPoint ((junk.drop 1).take 32)) (h : fromSec junk p arr = (p', n)) (hd : p'.status = .done) :
    ∃ P, P ≠ 0 ∧ arr.take n = secOf p'.compressed P ∧ p'.Holds P ∧ n = p'.length := by
  suffices hsuf : ∃ c P rest, P ≠ 0 ∧ arr = secOf c P ++ rest by
    obtain ⟨c, P, rest, h0, rfl⟩ := hsuf
    obtain ⟨p'', e, h'⟩ := fromSec_secOf junk c rest hs hp h0
    rw [e] at h
    obtain ⟨rfl, rfl⟩ := Prod.mk.inj h
    refine ⟨P, h0, ?_, h'.point, ?_⟩
    · rw [h'.compressed, List.take_left' (length_secOf c P)]
    · rw [length, h'.compressed]
  unfold fromSec at h
  match arr with
  | [] =>
    exfalso
    unfold fromStream at h
    rw [if_neg (by simp [hs])] at h
    simp only [hs, if_true, gt_iff_lt, Nat.lt_irrefl, if_false] at h
    have : (PStream.avail { bytes := [] }) = false := rfl
    rw [if_neg (by simp [this])] at h
    simp [body, PStream.readN] at h
    rw [← h.1] at hd
    simp at hd
  | b :: c =>
    by_cases hb : b < 0x02 ∨ b > 0x04
    · exfalso
      rw [fromStream_start junk 0 b c hs, if_pos hb] at h
      rw [← (Prod.mk.inj h).1] at hd
      simp at hd
    · have hf : b = 0x02 ∨ b = 0x03 ∨ b = 0x04 := by
        have : ∀ b : UInt8, ¬ (b < 0x02 ∨ b > 0x04) → b = 0x02 ∨ b = 0x03 ∨ b = 0x04 := by apply forall_byte; decide +kernel
        exact this b hb
      by_cases hl : c.length < if b = 0x04 then 64 else 32
      · exfalso
        obtain ⟨q, e, hg⟩ := got_first junk 0 b c hs hp hf hl
        rw [e] at h
        rw [← (Prod.mk.inj h).1] at hd
        rw [hg.status] at hd
        simp at hd
      · rw [fromStream_start junk 0 b c hs, if_neg hb] at h
        generalize hT : (if b = 0x04 then 64 else 32) = T at *
        have hT' : T ≤ 64 := by rw [← hT]; split_ifs <;> omega
        have hct : (c.take T).length = T := by simp; omega
        obtain ⟨q, e, q1, q2⟩ := body_all junk b { p with status := .incomplete, bytesParsed := 0, compressed := b != 0x04 } 1 (c.take T) (c.drop T) hp
          (by simp) (by simp; omega)
        rw [List.take_append_drop, hct] at e
        simp only at h
        rw [e] at h
        match hfin : finish junk b { p with status := .incomplete, bytesParsed := 0, compressed := b != 0x04, point := q } with
        | .ub =>
          exfalso
          simp only [hfin] at h
          rw [← (Prod.mk.inj h).1] at hd
          simp at hd
        | .ok r =>
          simp only [hfin] at h
          have hr : r.status = .done := by
            rw [← (Prod.mk.inj h).1] at hd
            exact hd
          obtain ⟨P, h0, es⟩ := finish_sound (p := { p with status := .incomplete, bytesParsed := 0, compressed := b != 0x04, point := q })
            q1 hf rfl hj hfin hr
          refine ⟨b != 0x04, P, c.drop T, h0, ?_⟩
          simp only at es
          rw [es, List.cons_append]
          congr 1
          have hlen : (⟨.incomplete, 0, q, b != 0x04⟩ : ECPoint).length - 1 = T := by
            rw [← hT]
            rcases hf with rfl | rfl | rfl <;> rfl
          rw [hlen]
          simp only [Nat.zero_add, Nat.sub_self, hct, List.take_zero, List.nil_append] at q2
          rw [q2, List.take_append_drop]

example : NoPoint (((List.replicate 65 (0xFF : UInt8)).drop 1).take 32) := by
  apply noPoint_of_large
  unfold secpP
  decide +kernel

theorem uncompress_invalid {x junk : Bytes} {b : UInt8} (hx : x.length = 32) (hno : NoPoint x) (hb : b = 0x02 ∨ b = 0x03) :
    uncompressPubkey (b :: x) junk = .ok (false, junk) := by
  unfold uncompressPubkey
  match hr : readPubkey (b :: x) CurvePoint.infinity with
  | .ok (false, r) => rfl
  | .ok (true, r) =>
    exfalso
    obtain ⟨P, c, h0, -, hsec⟩ := readPubkey_sound hr
    obtain ⟨-, hc', e⟩ := secOf_split _ _ _ rfl hsec
    have : c = true := by rw [hc']; rcases hb with rfl | rfl <;> decide
    subst this
    simp only [secOf, secBytes, if_true] at e
    have e2 := (List.cons.inj e).2
    rw [List.take_of_length_le (by omega)] at e2
    exact hno P h0 e2.symm
  | .ub =>
    exfalso
    unfold readPubkey at hr
    have he : entry (b :: x) 0 = .ok b := rfl
    have hl : load (b :: x) 1 32 = .ok x := by
      have := load_mid [b] x []
      rw [hx, List.append_nil] at this
      exact this
    rw [he, C.bind_ok, if_neg (by rcases hb with rfl | rfl <;> decide), if_pos hb, hl] at hr
    simp at hr

/-- C36, code and claim disagree: a compressed encoding whose abscissa belongs to no point is accepted if the uninitialised array in
`from_stream` happens to hold an encoded point (for instance of the key parsed just before); the object then holds that point. -/
theorem C36_invalid_accepted (p : ECPoint) (Q : Pt) (x rest : Bytes) (b : UInt8) (hs : p.status = .done) (hp : p.point.length = 64) (hQ : Q ≠ 0)
    (hx : x.length = 32) (hno : NoPoint x) (hb : b = 0x02 ∨ b = 0x03) :
    ∃ p', fromSec (secOf false Q) p (b :: (x ++ rest)) = (p', 33) ∧ p'.status = .done ∧ p'.Holds Q := by
  unfold fromSec
  rw [fromStream_start _ 0 b _ hs, if_neg (by rcases hb with rfl | rfl <;> decide)]
  have hT : (if b = 0x04 then 64 else 32) = x.length := by rw [hx]; rcases hb with rfl | rfl <;> decide
  have hc : (b != 0x04) = true := by rcases hb with rfl | rfl <;> decide
  rw [hT, hc]
  obtain ⟨q, e, q1, q2⟩ := body_all (secOf false Q) b { p with status := .incomplete, bytesParsed := 0, compressed := true } 1 x rest hp (by simp)
    (by simp [hx])
  rw [e]
  simp only [Nat.zero_add, Nat.sub_self, hx, List.take_zero, List.nil_append] at q2
  have hfin : finish (secOf false Q) b { p with status := .incomplete, bytesParsed := 0, compressed := true, point := q }
      = .ok { status := .done, bytesParsed := 0, compressed := true, point := rawPoint Q } := by
    unfold finish
    have hl : load q 0 32 = .ok x := by unfold load; rw [if_pos (by omega), List.drop_zero, q2]
    simp only [if_true, hl, C.bind_ok]
    unfold uncompressPubkey
    have hr : ∃ r, readPubkey (b :: x) CurvePoint.infinity = .ok (false, r) := by
      match hr : readPubkey (b :: x) CurvePoint.infinity with
      | .ok (false, r) => exact ⟨r, rfl⟩
      | .ok (true, r) =>
        exfalso
        obtain ⟨P, c, h0, -, hsec⟩ := readPubkey_sound hr
        obtain ⟨-, hc', e⟩ := secOf_split _ _ _ rfl hsec
        rw [hc] at hc'
        subst hc'
        simp only [if_true, secOf, secBytes] at e
        rw [List.take_of_length_le hx.le] at e
        exact hno P h0 (List.cons.inj e).2.symm
      | .ub =>
        exfalso
        unfold readPubkey at hr
        have he : entry (b :: x) 0 = .ok b := rfl
        have hl : load (b :: x) 1 32 = .ok x := by
          have := load_mid [b] x []
          rw [hx, List.append_nil] at this
          exact this
        rw [he, C.bind_ok, if_neg (by rcases hb with rfl | rfl <;> decide), if_pos hb, hl] at hr
        simp at hr
    obtain ⟨r, hr⟩ := hr
    rw [hr]
    have hload : load (secOf false Q) 1 64 = .ok (rawPoint Q) := by
      have := load_mid [0x04] (rawPoint Q) []
      rw [length_rawPoint, List.append_nil] at this
      exact this
    simp only [C.bind_ok, Bool.false_eq_true, if_false, C.pure_eq, hload]
    have hv : isValid { p with status := .done, bytesParsed := 0, compressed := true, point := rawPoint Q } = .ok true := isValid_holds (P := Q) rfl hQ rfl
    rw [hv]
    rfl
  rw [hfin]
  simp only [hx]
  exact ⟨_, rfl, rfl, rfl⟩

example : NoPoint (List.replicate 32 0xFF) := by
  apply noPoint_of_large
  unfold secpP
  decide +kernel

/-- C36, code and claim disagree: `isValid()` of a compressed key looks at the abscissa and one bit of the last byte only; the other
bytes of the ordinate may be anything. -/
theorem C36_isValid_ignores_y (p : ECPoint) (P : Pt) (h0 : P ≠ 0) (hc : p.compressed = true) (hs : p.status = .done) (hl : p.point.length = 64)
    (hx : p.point.take 32 = beBytes 32 (xNat P)) : p.isValid = .ok true := by
  have key : ∃ Q : Pt, Q ≠ 0 ∧ p.bytes = secOf true Q := by
    have hb : ∀ b : UInt8, 0x02 + (b &&& 0x01) = if b.toNat % 2 = 1 then 0x03 else 0x02 := by apply forall_byte; decide +kernel
    have e : p.bytes = (if (p.point.getD 63 0).toNat % 2 = 1 then 0x03 else 0x02) :: beBytes 32 (xNat P) := by
      unfold bytes
      rw [hc, length, hc]
      simp only [if_true, hb, hx]
    have hu := Nat.mod_two_eq_zero_or_one (p.point.getD 63 0).toNat
    by_cases hpar : (p.point.getD 63 0).toNat % 2 = yNat P % 2
    · refine ⟨P, h0, ?_⟩
      rw [e, hpar]
      rfl
    · refine ⟨-P, neg_ne_zero.mpr h0, ?_⟩
      rw [e, secOf_neg h0]
      congr 1
      generalize (p.point.getD 63 0).toNat % 2 = u at *
      have h2 := Nat.mod_two_eq_zero_or_one (yNat P)
      generalize yNat P % 2 = v at *
      have h1 : u = 0 ∨ u = 1 := hu
      rcases h1 with rfl | rfl <;> rcases h2 with rfl | rfl <;> first | rfl | exact absurd rfl hpar
  obtain ⟨Q, hQ, e⟩ := key
  rw [isValid_bytes p hl hs, e]
  obtain ⟨q, e', -⟩ := readPubkey_complete (isSec_secOf hQ) (zeros (65 - p.length)) CurvePoint.infinity
  rw [e']
  rfl

example : ∃ p : ECPoint, p.isValid = .ok true ∧ ∀ P, ¬ p.Holds P := by
  refine ⟨{ point := beBytes 32 (xNat G) ++ zeros 32 }, C36_isValid_ignores_y _ G G_ne_zero rfl rfl (by simp [Spec.length_beBytes]) (List.take_left' (by rw [Spec.length_beBytes])), ?_⟩
  intro P h
  have h' : beBytes 32 (xNat G) ++ zeros 32 = rawPoint P := h
  unfold rawPoint at h'
  obtain ⟨h1, h2⟩ := List.append_inj h' (by rw [Spec.length_beBytes, Spec.length_beBytes])
  have hy : beBytes 32 (yNat P) = beBytes 32 0 := by rw [← h2]; decide +kernel
  have hy0 := beBytes_inj ((yNat_lt P).trans p_lt_bytes) (by norm_num) hy
  have hx := beBytes_inj ((xNat_lt G).trans p_lt_bytes) ((xNat_lt P).trans p_lt_bytes) h1
  have hP : P = 0 := by
    by_contra h; exact yNat_ne h hy0
  subst hP
  have hg : xNat G = secpGx := by rw [xNat_at at_G, ZMod.val_natCast_of_lt (by unfold secpP; decide +kernel)]
  rw [hg] at hx
  exact absurd hx (by decide +kernel)

/-- C36, code and claim disagree: `first_byte` is one static variable for all keys.  If the first piece of a compressed key has arrived
and then, before the last one, another key with the other prefix is parsed, the key is read as its negative … -/
theorem C36_interleaved (junk : Bytes) (p : ECPoint) (fb : UInt8) (m c rest : Bytes) (P : Pt) (h : p.Got fb m) (h0 : P ≠ 0) (hc : p.compressed = true)
    (hb : m ++ c = secOf true P) (other : UInt8) (ho : other = 0x02 ∨ other = 0x03) (hne : other ≠ fb) :
    ∃ p', fromStream junk other p { bytes := c ++ rest } = ((p', other), c.length, { bytes := rest }) ∧ p'.status = .done ∧ p'.Holds (-P) := by
  obtain ⟨h1, h2, h3, ⟨t, rfl, h4⟩, h5, h6, h7⟩ := h
  have hsec : secOf true (-P) = other :: (t ++ c) := by
    have e : fb :: (t ++ c) = secOf true P := hb
    unfold secOf secBytes at e
    rw [if_pos rfl] at e
    obtain ⟨e1, e2⟩ := List.cons.inj e
    rw [secOf_neg h0, e2]
    congr 1
    have h2 := Nat.mod_two_eq_zero_or_one (yNat P)
    rcases h2 with h2 | h2 <;> rw [h2] at e1 ⊢ <;> rcases ho with rfl | rfl <;> simp_all
  have hg : p.Got other (other :: t) := ⟨h1, h2, h3, ⟨t, rfl, h4⟩, by tauto, by rw [hc]; rcases ho with rfl | rfl <;> decide, h7⟩
  obtain ⟨p', e, h'⟩ := got_last junk (rest := rest) hg (neg_ne_zero.mpr h0) (by rw [hc]; exact hsec.symm)
  exact ⟨p', e, h'.status, h'.point⟩

/-- … and if the other key was uncompressed (also: if any scalar was multiplied with the generator in between), `from_stream` reads
beyond the end of `buf`. -/
theorem C36_interleaved_undefined (junk : Bytes) (p : ECPoint) (fb : UInt8) (m c rest : Bytes) (h : p.Got fb m) (hc : p.compressed = true)
    (hl : m.length + c.length = 33) : (fromStream junk 0x04 p { bytes := c ++ rest }).1.1.status = .ub := by
  obtain ⟨h1, h2, h3, ⟨t, rfl, h4⟩, h5, h6, h7⟩ := h
  have hlen : p.length = 33 := by rw [length, hc]; rfl
  simp only [List.length_cons] at h3 h7 hl
  unfold fromStream
  rw [if_neg (by simp [h1])]
  simp only [h1, reduceCtorEq, if_false]
  rw [if_pos (by omega)]
  have e' : ({ p with status := .incomplete } : ECPoint).length = p.length := rfl
  rw [e', show p.length - p.bytesParsed = c.length by omega]
  obtain ⟨q, e, q1, q2⟩ := body_all junk 0x04 { p with status := .incomplete } 0 c rest h2 (by simp; omega) (by simp; omega)
  rw [e]
  have hfin : finish junk 0x04 { p with status := .incomplete, point := q } = .ub := by
    unfold finish
    have hx : load q 0 32 = .ok (q.take 32) := by unfold load; rw [if_pos (by omega), List.drop_zero]
    have hxl : (q.take 32).length = 32 := by simp; omega
    simp only [hc, if_true, hx, C.bind_ok]
    unfold uncompressPubkey readPubkey
    have he : entry (0x04 :: q.take 32) 0 = .ok 0x04 := rfl
    have hl1 : load (0x04 :: q.take 32) 1 32 = .ok (q.take 32) := by
      have := load_mid [0x04] (q.take 32) []
      rw [hxl, List.append_nil] at this
      exact this
    have hl2 : load (0x04 :: q.take 32) 33 32 = .ub := by
      unfold load
      rw [if_neg (by simp)]
    rw [he, C.bind_ok, if_pos rfl, hl1, C.bind_ok, hl2]
    rfl
  simp only [hfin]

example : ∃ (p : ECPoint) (fb : UInt8) (m : Bytes), p.Got fb m ∧ p.compressed = true ∧ m.length < 33 ∧ fb = 0x02 := by
  obtain ⟨p, -, h⟩ := got_first (p := {}) [] 0 0x02 [] rfl rfl (by simp) (by simp)
  exact ⟨p, _, _, h, by rw [h.compressed]; decide, by decide, rfl⟩

end ECPoint
end UB
