import Verif.Lemmas.Hex
import Verif.Lemmas.ScriptParse
import Verif.Model.Transaction

/-
C60: hex and raw streams.
-/

namespace UB
open Spec

/-- What a parser can observe of a parse stream. -/
def ParseByteStream.abs (s : ParseByteStream) : PStream :=
  match s.format with
  | .raw => .of (s.buf.drop s.cursor)
  | .hex => ⟨hexPairs (s.buf.drop s.cursor), decide ((hexPairs (s.buf.drop s.cursor)).length < (s.buf.length - s.cursor) / 2)⟩

/-- A program which uses a parse stream through `available()` and `read()` only. -/
inductive Spec.Reader (β : Type) where
  | ret (x : β)
  | available (k : Bool → Reader β)
  | read (k : Option UInt8 → Reader β)

/-- Running such a program on a stream of the library. -/
def Spec.Reader.run {β : Type} : Reader β → ParseByteStream → C (β × ParseByteStream)
  | .ret x, s => .ok (x, s)
  | .available k, s => (k (s.available > 0)).run s
  | .read k, s => do
    let (b, s) ← s.read
    (k b).run s

/-- Running it on the abstract stream of the parser models. -/
def Spec.Reader.runAbs {β : Type} : Reader β → PStream → β × PStream
  | .ret x, s => (x, s)
  | .available k, s => (k s.avail).runAbs s
  | .read k, s => (k s.read.1).runAbs s.read.2

theorem two_digits (a b : Nat) (ha : a < 16) (hb : b < 16) : (UInt8.ofNat a <<< 4) + UInt8.ofNat b = UInt8.ofNat (16 * a + b) := by
  have : ∀ a < 16, ∀ b < 16, (UInt8.ofNat a <<< 4) + UInt8.ofNat b = UInt8.ofNat (16 * a + b) := by decide +kernel
  exact this a ha b hb

theorem hexToVal_lt (c : UInt8) : hexToVal c < 0x10 ↔ (hexValue? c).isSome := by
  have : ∀ c : UInt8, decide (hexToVal c < 0x10) = (hexValue? c).isSome := by apply forall_byte; decide +kernel
  have h := this c
  constructor
  · intro hc; rw [← h]; simpa using hc
  · intro hc; rw [hc] at h; simpa using h

/-- C60: `available()` as the parser models see it. -/
theorem C60_available (s : ParseByteStream) : decide (s.available > 0) = s.abs.avail := by
  rw [Bool.eq_iff_iff, decide_eq_true_eq]
  obtain ⟨buf, cur, fmt⟩ := s
  cases fmt
  · show buf.length - cur > 0 ↔ (PStream.of (buf.drop cur)).avail = true
    rw [PStream.avail_of, Bool.not_eq_true', List.isEmpty_eq_false_iff, ← List.length_pos_iff, List.length_drop]
  · show (buf.length - cur) / 2 > 0 ↔ (decide ((hexPairs (buf.drop cur)).length < (buf.length - cur) / 2) || !(hexPairs (buf.drop cur)).isEmpty) = true
    have h := length_hexPairs_le (buf.drop cur)
    rw [List.length_drop] at h
    rw [Bool.or_eq_true, decide_eq_true_eq, Bool.not_eq_true', List.isEmpty_eq_false_iff, ← List.length_pos_iff]
    omega

theorem drop_two (buf : Bytes) (cur : Nat) (a b : UInt8) (h1 : buf[cur]? = some a) (h2 : buf[cur + 1]? = some b) :
    buf.drop cur = a :: b :: buf.drop (cur + 2) := by
  obtain ⟨g1, e1⟩ := List.getElem?_eq_some_iff.mp h1
  obtain ⟨g2, e2⟩ := List.getElem?_eq_some_iff.mp h2
  rw [List.drop_eq_getElem_cons g1, List.drop_eq_getElem_cons g2, e1, e2]

/-- C60: `read()` as the parser models see it; a hex stream over no characters at all is excluded (`C60_empty_hex_read`). -/
theorem C60_read (s : ParseByteStream) (h : s.format = .hex → s.buf ≠ []) :
    ∃ s', s.read = .ok (s.abs.read.1, s') ∧ s'.abs = s.abs.read.2 ∧ s'.format = s.format ∧ s'.buf = s.buf := by
  obtain ⟨buf, cur, fmt⟩ := s
  cases fmt with
  | raw =>
    simp only [ParseByteStream.read, ParseByteStream.abs, PStream.read, PStream.of]
    cases e : buf[cur]? with
    | none =>
      have hd : buf.drop cur = [] := List.drop_eq_nil_of_le (List.getElem?_eq_none_iff.mp e)
      exact ⟨_, by rw [hd], by rw [hd], rfl, rfl⟩
    | some c =>
      obtain ⟨g1, e1⟩ := List.getElem?_eq_some_iff.mp e
      rw [List.drop_eq_getElem_cons g1, e1]
      exact ⟨_, rfl, rfl, rfl, rfl⟩
  | hex =>
    have hne : buf.length ≠ 0 := fun hz => h rfl (List.length_eq_zero_iff.mp hz)
    simp only [ParseByteStream.read]
    by_cases hc : cur < buf.length - 1
    · rw [if_pos (Or.inr hc), List.getElem?_eq_getElem (by omega), List.getElem?_eq_getElem (by omega)]
      simp only
      have hd := drop_two buf cur buf[cur] buf[cur + 1] (List.getElem?_eq_getElem (by omega)) (List.getElem?_eq_getElem (by omega))
      generalize buf[cur] = a at hd ⊢
      generalize buf[cur + 1] = b at hd ⊢
      have hlen : (buf.drop (cur + 2)).length = buf.length - (cur + 2) := List.length_drop
      by_cases hab : hexToVal a < 0x10 ∧ hexToVal b < 0x10
      · rw [if_pos hab]
        obtain ⟨x, hx⟩ := Option.isSome_iff_exists.mp ((hexToVal_lt a).mp hab.1)
        obtain ⟨y, hy⟩ := Option.isSome_iff_exists.mp ((hexToVal_lt b).mp hab.2)
        have hp : hexPairs (buf.drop cur) = UInt8.ofNat (16 * x + y) :: hexPairs (buf.drop (cur + 2)) := by
          rw [hd]; simp only [hexPairs, hx, hy]
        refine ⟨⟨buf, cur + 2, .hex⟩, ?_, ?_, rfl, rfl⟩
        · simp only [ParseByteStream.abs, PStream.read, hp]
          rw [hexToVal_eq a, hexToVal_eq b, hx, hy]
          simp only
          rw [two_digits x y (hexValue_lt a x hx) (hexValue_lt b y hy)]
        · simp only [ParseByteStream.abs, PStream.read, hp, List.length_cons]
          congr 1
          rw [decide_eq_decide]
          omega
      · rw [if_neg hab]
        have hp : hexPairs (buf.drop cur) = [] := by
          rw [hd]
          unfold hexPairs
          rw [hexToVal_lt, hexToVal_lt] at hab
          split
          · rename_i h1 h2; rw [h1, h2] at hab; simp at hab
          · rfl
        refine ⟨⟨buf, cur, .hex⟩, ?_, ?_, rfl, rfl⟩ <;> simp only [ParseByteStream.abs, PStream.read, hp]
    · rw [if_neg (by omega)]
      have hp : hexPairs (buf.drop cur) = [] := by
        have hl := length_hexPairs_le (buf.drop cur)
        rw [List.length_drop] at hl
        exact List.length_eq_zero_iff.mp (by omega)
      refine ⟨⟨buf, cur, .hex⟩, ?_, ?_, rfl, rfl⟩ <;> simp only [ParseByteStream.abs, PStream.read, hp]

/-- C60: the abstract stream stands for the real one in every program, hence in every parser. -/
theorem C60_reader {β : Type} (p : Reader β) (s : ParseByteStream) (h : s.format = .hex → s.buf ≠ []) :
    ∃ s', p.run s = .ok ((p.runAbs s.abs).1, s') ∧ s'.abs = (p.runAbs s.abs).2 := by
  induction p generalizing s with
  | ret x => exact ⟨s, rfl, rfl⟩
  | available k ih =>
    obtain ⟨s', h1, h2⟩ := ih s.abs.avail s h
    refine ⟨s', ?_, h2⟩
    show (k (decide (s.available > 0))).run s = _
    rw [C60_available]
    exact h1
  | read k ih =>
    obtain ⟨s1, h1, h2, h3, h4⟩ := C60_read s h
    obtain ⟨s', h5, h6⟩ := ih s.abs.read.1 s1 (by rw [h3, h4]; exact h)
    refine ⟨s', ?_, ?_⟩
    · show (do let (b, s) ← s.read; (k b).run s) = _
      rw [h1, C.bind_ok]
      simp only
      rw [h5, h2]; rfl
    · rw [h6, h2]; rfl

/-- C60: hex text of some bytes, in either case, is the same stream as the bytes. -/
theorem C60_hex_text (t bs : Bytes) (h : t.map lower = hexText bs) :
    (⟨t, 0, .hex⟩ : ParseByteStream).abs = (⟨bs, 0, .raw⟩ : ParseByteStream).abs := by
  have hl := congrArg List.length h
  rw [List.length_map, length_hexText] at hl
  simp only [ParseByteStream.abs, List.drop_zero, hexPairs_text t bs h, PStream.of]
  congr 1
  rw [decide_eq_false_iff_not]
  omega

/-- C60: every program gives the same answer on hex text as on the bytes. -/
theorem C60_hex_equals_raw {β : Type} (p : Reader β) (t bs : Bytes) (h : t.map lower = hexText bs) (hne : bs ≠ []) :
    ∃ x s s', p.run ⟨t, 0, .hex⟩ = .ok (x, s) ∧ p.run ⟨bs, 0, .raw⟩ = .ok (x, s') ∧ s.abs = s'.abs := by
  have ht : t ≠ [] := by
    rintro rfl
    have hl := congrArg List.length h
    rw [List.length_map, length_hexText, List.length_nil] at hl
    exact hne (List.length_eq_zero_iff.mp (by omega))
  obtain ⟨s, h1, h2⟩ := C60_reader p ⟨t, 0, .hex⟩ (fun _ => ht)
  obtain ⟨s', h3, h4⟩ := C60_reader p ⟨bs, 0, .raw⟩ (fun h => by cases h)
  rw [C60_hex_text t bs h] at h1 h2
  exact ⟨_, s, s', h1, h3, by rw [h2, h4]⟩

/-- C60: reading from a hex stream over no characters reads out of bounds (`len-1` wraps around). -/
theorem C60_empty_hex_read : (⟨[], 0, .hex⟩ : ParseByteStream).read = .ub := rfl

/-- C60, second half, is false: a non-hex character does not stop the parsers, they read it as the byte `ff`. The text
"01zz" is a complete script, "05" followed by anything of ten characters beginning with a non-hex one too. -/
theorem C60_bad_hex_accepted :
    (({} : Script).fromStream (⟨str "01zz", 0, .hex⟩ : ParseByteStream).abs).1.status = .done ∧
    (({} : Script).fromStream (⟨str "01zz", 0, .hex⟩ : ParseByteStream).abs).1.arr = [0xff] ∧
    (({} : Script).fromStream (⟨str "05not hex!!", 0, .hex⟩ : ParseByteStream).abs).1.arr = [0xff, 0xff, 0xff, 0xff, 0xff] := by decide +kernel

/-- C60: the same for the last field of a transaction. -/
theorem C60_bad_locktime_accepted :
    (({} : Tx).fromStream (⟨str "01000000" ++ str "01" ++ List.replicate 72 48 ++ str "00" ++ str "ffffffff" ++ str "00" ++ str "locktime", 0, .hex⟩ : ParseByteStream).abs).1.status = .done := by
  decide +kernel

/-! ### Writing -/

theorem set_after (pre x : Bytes) (c : UInt8) (v : UInt8) : (pre ++ c :: x).set pre.length v = pre ++ v :: x := by
  rw [List.set_append_right _ _ (Nat.le_refl _), Nat.sub_self, List.set_cons_zero]

theorem raw_writeAll (len : Nat) : ∀ (bs pre : Bytes), pre.length ≤ len →
    (⟨pre ++ zeros (len - pre.length), pre.length, .raw⟩ : SerializeByteStream).writeAll bs =
      (⟨pre ++ bs.take (len - pre.length) ++ zeros (len - pre.length - bs.length), pre.length + (bs.take (len - pre.length)).length, .raw⟩, (bs.take (len - pre.length)).length)
  | [], pre, h => by simp [SerializeByteStream.writeAll]
  | b :: bs, pre, h => by
    unfold SerializeByteStream.writeAll
    have hav : (⟨pre ++ zeros (len - pre.length), pre.length, .raw⟩ : SerializeByteStream).available = len - pre.length := by
      simp [SerializeByteStream.available]
    rw [hav]
    by_cases hp : len - pre.length > 0
    · rw [if_pos hp]
      obtain ⟨k, hk⟩ : ∃ k, len - pre.length = k + 1 := ⟨len - pre.length - 1, by omega⟩
      have hw : (⟨pre ++ zeros (len - pre.length), pre.length, .raw⟩ : SerializeByteStream).write b =
          (⟨(pre ++ [b]) ++ zeros (len - (pre ++ [b]).length), (pre ++ [b]).length, .raw⟩, 1) := by
        unfold SerializeByteStream.write
        rw [hav, if_pos hp]
        simp only [hk, List.length_append, List.length_singleton]
        rw [show zeros (k + 1) = 0 :: zeros k from rfl, set_after, show len - (pre.length + 1) = k from by omega]
        simp
      rw [hw]
      have hl : (pre ++ [b]).length = pre.length + 1 := by simp
      have ih := raw_writeAll len bs (pre ++ [b]) (by omega)
      simp only
      rw [ih, hl]
      rw [show len - (pre.length + 1) = k from by omega, hk]
      simp only [List.take_succ_cons, List.length_cons, List.append_assoc, Nat.add_sub_add_right, List.cons_append]
      refine Prod.ext ?_ rfl
      simp only [SerializeByteStream.mk.injEq, and_true]
      exact ⟨by simp, by omega⟩
    · rw [if_neg hp, show len - pre.length = 0 from by omega]
      simp

theorem hex_writeAll (len : Nat) : ∀ (bs pre : Bytes), pre.length ≤ len →
    (⟨pre ++ zeros (len - pre.length), pre.length, .hex⟩ : SerializeByteStream).writeAll bs =
      (⟨pre ++ hexText (bs.take ((len - pre.length) / 2)) ++ zeros (len - pre.length - 2 * (bs.take ((len - pre.length) / 2)).length),
        pre.length + 2 * (bs.take ((len - pre.length) / 2)).length, .hex⟩, (bs.take ((len - pre.length) / 2)).length)
  | [], pre, h => by simp [SerializeByteStream.writeAll, hexText]
  | b :: bs, pre, h => by
    unfold SerializeByteStream.writeAll
    have hav : (⟨pre ++ zeros (len - pre.length), pre.length, .hex⟩ : SerializeByteStream).available = (len - pre.length) / 2 := by
      simp [SerializeByteStream.available]
    rw [hav]
    by_cases hp : (len - pre.length) / 2 > 0
    · rw [if_pos hp]
      obtain ⟨k, hk⟩ : ∃ k, len - pre.length = k + 2 := ⟨len - pre.length - 2, by omega⟩
      have hhi : hexDigit ((b >>> 4) &&& 0x0F) = hexDigitChar (b.toNat / 16) := by revert b; apply forall_byte; decide +kernel
      have hw : (⟨pre ++ zeros (len - pre.length), pre.length, .hex⟩ : SerializeByteStream).write b =
          (⟨(pre ++ hexText [b]) ++ zeros (len - (pre ++ hexText [b]).length), (pre ++ hexText [b]).length, .hex⟩, 1) := by
        unfold SerializeByteStream.write
        rw [hav, if_pos hp]
        simp only [hk, List.length_append, length_hexText, List.length_singleton]
        rw [show zeros (k + 2) = 0 :: 0 :: zeros k from rfl, set_after, hhi, hexDigit_lo]
        have h2 := set_after (pre ++ [hexDigitChar (b.toNat / 16)]) (zeros k) 0 (hexDigitChar (b.toNat % 16))
        rw [List.length_append, List.length_singleton, List.append_assoc, List.singleton_append] at h2
        rw [h2, show len - (pre.length + 2 * 1) = k from by omega]
        simp [hexText]
      rw [hw]
      have hl : (pre ++ hexText [b]).length = pre.length + 2 := by simp [length_hexText]
      have ih := hex_writeAll len bs (pre ++ hexText [b]) (by omega)
      simp only
      rw [ih, hl]
      rw [show len - (pre.length + 2) = k from by omega, hk, show (k + 2) / 2 = k / 2 + 1 from by omega]
      have hc : hexText (b :: bs.take (k / 2)) = hexText [b] ++ hexText (bs.take (k / 2)) := by simp [hexText]
      rw [List.take_succ_cons, List.length_cons, hc]
      refine Prod.ext ?_ (by simp)
      simp only [SerializeByteStream.mk.injEq, and_true]
      refine ⟨?_, by omega⟩
      rw [← List.append_assoc, show k + 2 - 2 * ((bs.take (k / 2)).length + 1) = k - 2 * (bs.take (k / 2)).length from by omega]
    · rw [if_neg hp, show (len - pre.length) / 2 = 0 from by omega]
      simp [hexText]

/-- C60, writing: bytes written to a raw stream over a buffer of `len` bytes, and to a hex stream over `len` characters:
lowercase hex text of as many of the bytes as fit, rest of the buffer zero, count of bytes (not characters) returned. -/
theorem C60_written (len : Nat) (bs : Bytes) :
    (let r := (SerializeByteStream.init len .raw).writeAll bs; r.1.buf = bs.take len ++ zeros (len - bs.length) ∧ r.2 = min len bs.length) ∧
    (let r := (SerializeByteStream.init len .hex).writeAll bs
     r.1.buf = hexText (bs.take (len / 2)) ++ zeros (len - 2 * min (len / 2) bs.length) ∧ r.2 = min (len / 2) bs.length) := by
  have h1 := raw_writeAll len bs [] (by simp)
  have h2 := hex_writeAll len bs [] (by simp)
  simp only [List.length_nil, Nat.sub_zero, List.nil_append, Nat.zero_add] at h1 h2
  unfold SerializeByteStream.init
  refine ⟨?_, ?_⟩
  · simp only [h1]; exact ⟨trivial, List.length_take⟩
  · simp only [h2]; simp only [List.length_take]; exact ⟨trivial, trivial⟩

/-- C60: a text in mixed case meets the hypotheses of `C60_hex_equals_raw`. -/
example : (str "01aBFf").map lower = hexText [0x01, 0xab, 0xff] ∧ ([0x01, 0xab, 0xff] : Bytes) ≠ [] := by decide +kernel

end UB
