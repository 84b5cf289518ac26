import Verif.Lemmas.ListParse

/-
Parsing of witness stacks. The parser may be stopped and resumed anywhere but inside a length prefix of
several bytes (there the code goes wrong, see `Cut`).
-/

namespace UB
open Spec

namespace Witness

/-- Script.cpp:611-624: the bytes of one element and the end of the round. -/
def roundBody (w : Witness) (cr offset : Nat) (s : PStream) : Round :=
  let total := w.curElementLen + lenVarIntN w.curElementLen
  let (bs, s) := s.readN (total - (w.curBytesParsed + cr))
  match writeAt w.arr (offset + w.curBytesParsed + cr) bs with
  | none => .ub s
  | some arr =>
    let w := { w with arr := arr }
    let cr := cr + bs.length
    if w.curBytesParsed + cr = total then
      .next { w with curLen := 0, curElementLen := 0, curElement := w.curElement + 1, curBytesParsed := 0 } cr s
    else .next { w with curBytesParsed := w.curBytesParsed + cr } cr s

/-- Script.cpp:590-624. -/
def roundTail (w : Witness) (cr offset : Nat) (s : PStream) : Round :=
  if lenVarIntN w.curElementLen ≠ w.curLen ∧ w.curBytesParsed + cr = w.curLen then
    .fail { w with status := .failed, curBytesParsed := w.curBytesParsed + cr } cr s
  else
    match w.elemAlloc cr offset with
    | none => .ub s
    | some w => w.roundBody cr offset s

theorem round_some (w w' : Witness) (pos cr : Nat) (s s' : PStream) (h : w.elemLen s = some (w', cr, s')) :
    w.round pos s = w'.roundTail cr (pos - lenVarIntN w.numElements - w.curBytesParsed) s' := by
  unfold round
  rw [h]
  rfl

theorem round_none (w : Witness) (pos : Nat) (s : PStream) (h : w.elemLen s = none) : w.round pos s = .ub s := by
  unfold round
  rw [h]

/-- Value of a length prefix as accumulated by the code. -/
def accVal (b : UInt8) (r : Bytes) : Nat := if extraBytes b = 0 then b.toNat else accLen r

theorem elemLen_mid (w : Witness) (c : Bytes) (h1 : w.curBytesParsed ≠ 0) (h2 : w.curLen ≤ w.curBytesParsed) :
    w.elemLen (.of c) = some (w, 0, .of c) := by
  unfold elemLen
  rw [if_neg (fun h => h1 h.2)]
  simp only [Nat.add_zero]
  rw [show w.curLen - w.curBytesParsed = 0 by omega]
  simp [lenLoop]

theorem elemLen_fresh (w : Witness) (b : UInt8) (c : Bytes) (h : w.curBytesParsed = 0) :
    (¬ tooLong (extraBytes b) (c.take (extraBytes b)) → w.elemLen (.of (b :: c)) =
      some ({ w with curElementLen := accVal b (c.take (extraBytes b)), curLen := extraBytes b + 1 },
        1 + min (extraBytes b) c.length, .of (c.drop (extraBytes b)))) ∧
    (tooLong (extraBytes b) (c.take (extraBytes b)) → w.elemLen (.of (b :: c)) = none) := by
  unfold elemLen
  rw [if_pos ⟨by simp, h⟩]
  have hrb : (PStream.of (b :: c)).readByte = (b, .of c) := rfl
  rw [hrb]
  simp only
  rcases byte_cases b with ⟨hb, hb'⟩ | hb
  · have hk : extraBytes b = 0 := by simp [extraBytes, hb]
    rw [if_pos hb, hk]
    simp only [h, accVal, hk, if_true]
    simp [lenLoop, tooLong, h]
  · have hlt : ¬ b < 0xfd := by rcases hb with rfl | rfl | rfl <;> decide
    have hk : 1 + 2 ^ (b.toNat - 0xfc) = extraBytes b + 1 := by rcases hb with rfl | rfl | rfl <;> decide
    have hk0 : extraBytes b ≠ 0 := by rcases hb with rfl | rfl | rfl <;> decide
    rw [if_neg hlt, hk]
    simp only [h]
    have hs := lenLoop_spec (extraBytes b) (extraBytes b) [] c (by simp) (by simp [tooLong])
    simp only [List.nil_append, List.length_nil, Nat.add_zero, accLen_small [] (by simp), leValue_nil] at hs
    rw [show extraBytes b + 1 - (0 + 1) = extraBytes b by omega, show 0 + 1 = 1 from rfl]
    refine ⟨fun ht => ?_, fun ht => ?_⟩
    · rw [hs.1 ht]
      simp only [accVal, if_neg hk0]
      simp [h]
    · rw [hs.2 ht]

theorem elemAlloc_idle (w : Witness) (cr offset : Nat) (h : ¬ (w.curBytesParsed + cr = w.curLen ∧ cr > 0)) :
    w.elemAlloc cr offset = some w := by
  unfold elemAlloc; rw [if_neg h]

theorem writeAt_mid (pre x y : Bytes) (h : x.length ≤ y.length) : writeAt (pre ++ y) pre.length x = some (pre ++ (x ++ y.drop x.length)) := by
  unfold writeAt
  split_ifs with h1 h2
  · subst h1; simp
  · simp only [Option.some.injEq, List.take_left', List.append_assoc]
    congr 2
    rw [← List.drop_drop, List.drop_left]
  · rw [List.length_append] at h2; omega

theorem elemAlloc_new (w : Witness) (cr offset : Nat) (h1 : w.curBytesParsed + cr = w.curLen) (h2 : cr > 0)
    (h3 : w.curElementLen < 2 ^ 64) (h4 : offset = w.arr.length) :
    w.elemAlloc cr offset = some { w with arr := w.arr ++ (compactSize w.curElementLen ++ zeros w.curElementLen) } := by
  unfold elemAlloc
  rw [if_pos ⟨h1, h2⟩]
  simp only
  rw [lenVarIntN_eq _ h3, writeVarInt_zeros _ _ h3 (le_refl _)]
  simp only [Nat.sub_self]
  have e0 : zeros 0 = [] := rfl
  rw [e0, List.append_nil]
  have hd : (zeros (w.curElementLen + (compactSize w.curElementLen).length)).drop (compactSize w.curElementLen).length = zeros w.curElementLen := by
    rw [drop_zeros]; congr 1; omega
  by_cases ha : w.arr = []
  · rw [if_pos ha]
    have := writeAt_mid [] (compactSize w.curElementLen) (zeros (w.curElementLen + (compactSize w.curElementLen).length)) (by rw [length_zeros]; omega)
    rw [List.nil_append, List.length_nil, hd] at this
    rw [this]
    simp [ha]
  · rw [if_neg ha, h4]
    rw [writeAt_mid _ _ _ (by rw [length_zeros]; omega), hd]

/-- The whole elements parsed so far, as stored. -/
abbrev flat (es : List Bytes) : Bytes := es.flatMap varBytes

theorem flat_snoc (es : List Bytes) (d : Bytes) : flat (es ++ [d]) = flat es ++ varBytes d := by simp [flat]

/-- Bookkeeping after the elements `es` of a stack of `n`. -/
structure Base (w : Witness) (n : Nat) (es : List Bytes) : Prop where
  status : w.status = .incomplete
  num : w.numElements = n
  small : n < 253
  cur : w.curElement = es.length

/-- State of the current element of which `q` has been consumed. -/
def Elem (w : Witness) (es : List Bytes) (q : Bytes) : Prop :=
  (q = [] ∧ w.curBytesParsed = 0 ∧ w.arr = flat es) ∨
  (∃ b r, q = b :: r ∧ b ≠ 0xff ∧ extraBytes b ≤ r.length ∧ (compactSize (prefixValue b r)).length = extraBytes b + 1 ∧
    prefixValue b r < 2 ^ 31 ∧ w.curElementLen = prefixValue b r ∧ w.curLen = extraBytes b + 1 ∧ w.curBytesParsed = q.length ∧
    (r.drop (extraBytes b)).length < prefixValue b r ∧
    w.arr = flat es ++ (q ++ zeros (prefixValue b r - (r.drop (extraBytes b)).length)))

/-- `q` ends inside a length prefix of several bytes. -/
def CutElem (q : Bytes) : Prop := ∃ b r, q = b :: r ∧ r.length < extraBytes b ∧ ¬ tooLong (extraBytes b) r

/-- A prefix cut in such a way that the code takes the element for complete: the number made up of the length
bytes so far is the number of bytes read so far. -/
def Phantom (q : Bytes) : Prop := ∃ b r, q = b :: r ∧ r.length < extraBytes b ∧ ¬ tooLong (extraBytes b) r ∧
  leValue r + lenVarIntN (leValue r) = q.length

theorem prefixValue_take (b : UInt8) (r : Bytes) : prefixValue b (r.take (extraBytes b)) = prefixValue b r := by
  unfold prefixValue; rw [List.take_take, Nat.min_self]

/-- The shortest prefix is determined by its value. -/
theorem prefix_canonical (b : UInt8) (r : Bytes) (hb : b ≠ 0xff) (h1 : extraBytes b ≤ r.length)
    (h2 : (compactSize (prefixValue b r)).length = extraBytes b + 1) (h3 : prefixValue b r < 2 ^ 31) :
    b :: r.take (extraBytes b) = compactSize (prefixValue b r) := by
  have hv := Script.readVar_body b (r.take (extraBytes b) ++ zeros (prefixValue b r)) hb (by simp; omega)
    (by rw [Script.prefixValue_append _ _ _ (by simp; omega)]; rw [prefixValue_take]; exact h2)
    (by rw [Script.prefixValue_append _ _ _ (by simp; omega)]; rw [prefixValue_take]; exact h3)
  have e1 : prefixValue b (r.take (extraBytes b) ++ zeros (prefixValue b r)) = prefixValue b r := by
    rw [Script.prefixValue_append _ _ _ (by simp; omega), prefixValue_take]
  have e2 : (r.take (extraBytes b) ++ zeros (prefixValue b r)).drop (extraBytes b) = zeros (prefixValue b r) := by
    rw [List.drop_append_of_le_length (by simp; omega), List.drop_of_length_le (by simp)]; rfl
  rw [e1, e2, length_zeros, if_neg (by omega)] at hv
  have hs := (codecVar.sound _ _ _ hv).1
  have e3 : (zeros (prefixValue b r)).take (prefixValue b r) = zeros (prefixValue b r) := List.take_of_length_le (by simp)
  have e4 : (zeros (prefixValue b r)).drop (prefixValue b r) = [] := List.drop_of_length_le (by simp)
  rw [e3, e4, List.append_nil, varBytes, length_zeros, ← List.cons_append] at hs
  exact List.append_cancel_right hs

/-- Reading `n` length-prefixed strings, the first one which cannot be accepted has an eight-byte length. -/
def wideMany : Nat → Bytes → Prop
  | 0, _ => False
  | n + 1, p => match readVar p with
    | .more => False
    | .bad => ∃ r, p = 0xff :: r
    | .ok _ r => wideMany n r

theorem wideMany_bad {q : Bytes} (n : Nat) (h : readVar q = .bad) : wideMany (n + 1) q ↔ ∃ r, q = 0xff :: r := by
  simp only [wideMany, h]

theorem wideMany_ok {q d r : Bytes} (n : Nat) (h : readVar q = .ok d r) : wideMany (n + 1) q ↔ wideMany n r := by
  simp only [wideMany, h]

theorem readVar_suffix {q d r : Bytes} (h : readVar q = .ok d r) : r <:+ q := by
  rw [(codecVar.sound q d r h).1]; exact List.suffix_append _ _

theorem wideMany_wide : ∀ (n : Nat) (q : Bytes), wideMany n q → Wide q
  | 0, _, h => h.elim
  | n + 1, q, h => by
    cases e : readVar q with
    | more => simp only [wideMany, e] at h
    | bad =>
      obtain ⟨r, rfl⟩ := (wideMany_bad n e).mp h
      exact ⟨[], r, rfl, readVar_wide e⟩
    | ok d r => exact (wideMany_wide n r ((wideMany_ok n e).mp h)).mono (readVar_suffix e).isInfix

/-- A witness stack, one of whose elements has an eight-byte length. -/
def wideWitness : Bytes → Prop
  | [] => False
  | b :: r => b < 0xfd ∧ wideMany b.toNat r

theorem wideWitness_wide (q : Bytes) (h : wideWitness q) : Wide q := by
  cases q with
  | nil => exact h.elim
  | cons b r => exact (wideMany_wide _ _ h.2).mono (List.suffix_cons b r).isInfix

/-- What one round must produce. -/
def RoundOk (n : Nat) (es : List Bytes) (q c : Bytes) (bp : Nat) (R : Round) : Prop :=
  match readVar (q ++ c) with
  | .ok d r => ∃ w', R = .next w' (c.length - r.length) (.of r) ∧ r.length ≤ c.length ∧ w'.Base n (es ++ [d]) ∧ w'.Elem (es ++ [d]) [] ∧
      w'.bytesParsed = bp ∧ w'.lenLen = 1
  | .bad => ∃ r, r <:+ c ∧ ((R = .ub (.of r) ∧ ∃ x, q ++ c = 0xff :: x) ∨
      ∃ w' cr, R = .fail w' cr (.of r) ∧ w'.status = .failed ∧ ¬ ∃ x, q ++ c = 0xff :: x)
  | .more => ∃ w', R = .next w' c.length (.of []) ∧ w'.bytesParsed = bp ∧ w'.lenLen = 1 ∧
      ((w'.Base n es ∧ w'.Elem es (q ++ c)) ∨
       (CutElem (q ++ c) ∧ w'.arr = flat es ∧ w'.status = .incomplete ∧ w'.numElements = n ∧
        (w'.curElement = es.length ∨ w'.curElement = es.length + 1 ∧ Phantom (q ++ c))))

/-- The element bytes once the length is known. -/
theorem roundBody_spec (w : Witness) (n : Nat) (es : List Bytes) (cr : Nat) (b : UInt8) (r body q c0 c : Bytes)
    (hB : w.Base n es) (hb : b ≠ 0xff) (hq : q ++ c0 = b :: r) (hcr : c0.length = cr) (hcb : w.curBytesParsed = q.length)
    (h1 : extraBytes b ≤ r.length) (h2 : (compactSize (prefixValue b r)).length = extraBytes b + 1) (h3 : prefixValue b r < 2 ^ 31)
    (hv : w.curElementLen = prefixValue b r) (hl : w.curLen = extraBytes b + 1) (hbody : body = r.drop (extraBytes b))
    (hle : body.length ≤ prefixValue b r) (hll : w.lenLen = 1)
    (harr : w.arr = flat es ++ ((b :: r) ++ zeros (prefixValue b r - body.length))) :
    RoundOk n es q (c0 ++ c) w.bytesParsed (w.roundBody cr (flat es).length (.of c)) := by
  obtain ⟨b1, b2, b3, b4⟩ := hB
  have hbl : body.length = r.length - extraBytes b := by rw [hbody]; simp
  have hql : q.length + c0.length = 1 + r.length := by have := congrArg List.length hq; simp at this; omega
  unfold roundBody
  simp only [PStream.readN_of]
  have hlv : lenVarIntN w.curElementLen = extraBytes b + 1 := by rw [hv, lenVarIntN_eq _ (by omega), h2]
  have hrem : w.curElementLen + lenVarIntN w.curElementLen - (w.curBytesParsed + cr) = prefixValue b r - body.length := by
    rw [hlv, hv, hcb]; omega
  have hoff : (flat es).length + w.curBytesParsed + cr = (flat es ++ (b :: r)).length := by
    rw [List.length_append, List.length_cons]; omega
  rw [hrem, hoff, harr, ← List.append_assoc, Script.writeAt_fill _ _ _ (by rw [List.length_take]; omega)]
  simp only
  have hpc : q ++ (c0 ++ c) = b :: (r ++ c) := by rw [← List.append_assoc, hq]; rfl
  unfold RoundOk
  rw [hpc, Script.readVar_body b (r ++ c) hb (by simp; omega) (by rw [Script.prefixValue_append _ _ _ h1]; exact h2)
    (by rw [Script.prefixValue_append _ _ _ h1]; exact h3), Script.prefixValue_append _ _ _ h1]
  have hd : (r ++ c).drop (extraBytes b) = body ++ c := by rw [List.drop_append_of_le_length h1, hbody]
  rw [hd]
  by_cases hlt : (body ++ c).length < prefixValue b r
  · rw [if_pos hlt]
    have hlt' : body.length + c.length < prefixValue b r := by simpa using hlt
    have et : c.take (prefixValue b r - body.length) = c := List.take_of_length_le (by omega)
    have ed : c.drop (prefixValue b r - body.length) = [] := List.drop_of_length_le (by omega)
    have hn : (c0 ++ c).length = cr + c.length := by rw [List.length_append, hcr]
    rw [et, ed, if_neg (by rw [hlv, hv, hcb]; omega), hn]
    refine ⟨_, rfl, rfl, hll, Or.inl ⟨⟨b1, b2, b3, b4⟩, Or.inr ⟨b, r ++ c, rfl, hb, by simp; omega, ?_, ?_, ?_, hl, ?_, ?_, ?_⟩⟩⟩
    · rw [Script.prefixValue_append _ _ _ h1]; exact h2
    · rw [Script.prefixValue_append _ _ _ h1]; exact h3
    · rw [Script.prefixValue_append _ _ _ h1]; exact hv
    · simp only [List.length_cons, List.length_append]; omega
    · rw [Script.prefixValue_append _ _ _ h1, hd]; exact hlt
    · rw [Script.prefixValue_append _ _ _ h1, hd]
      simp only [List.append_assoc, List.cons_append, List.length_append]
      rw [show prefixValue b r - body.length - c.length = prefixValue b r - (body.length + c.length) by omega]
  · rw [if_neg hlt]
    have hlt' : prefixValue b r ≤ body.length + c.length := by simp at hlt; omega
    have lt : (c.take (prefixValue b r - body.length)).length = prefixValue b r - body.length := by simp; omega
    have et : (body ++ c).take (prefixValue b r) = body ++ c.take (prefixValue b r - body.length) := by
      rw [List.take_append, List.take_of_length_le hle]
    have ed : (body ++ c).drop (prefixValue b r) = c.drop (prefixValue b r - body.length) := by
      rw [List.drop_append, List.drop_of_length_le hle]; rfl
    have hn : (c0 ++ c).length - (c.drop (prefixValue b r - body.length)).length = cr + (prefixValue b r - body.length) := by
      rw [List.length_append, List.length_drop, hcr]; omega
    rw [et, ed, lt, if_pos (by rw [hlv, hv, hcb]; omega)]
    simp only
    rw [hn]
    refine ⟨_, rfl, by simp only [List.length_append, List.length_drop]; omega, ⟨b1, b2, b3, by simp [b4]⟩, Or.inl ⟨rfl, rfl, ?_⟩, rfl, hll⟩
    · simp only
      rw [Nat.sub_self, show zeros 0 = [] from rfl, List.append_nil, flat_snoc, List.append_assoc]
      congr 1
      unfold varBytes
      have hlen : (body ++ c.take (prefixValue b r - body.length)).length = prefixValue b r := by rw [List.length_append, lt]; omega
      rw [hlen, ← prefix_canonical b r hb h1 h2 h3, hbody]
      simp only [List.cons_append]
      rw [← List.append_assoc, List.take_append_drop]

theorem accVal_eq (b : UInt8) (r : Bytes) (hr : r.length = extraBytes b) (h : ¬ (2 ^ 31 ≤ leValue r)) : accVal b r = prefixValue b r := by
  unfold accVal prefixValue
  split_ifs
  · rfl
  · rw [List.take_of_length_le (by omega)]
    unfold accLen; rw [if_neg (fun hh => h hh.2)]

/-- One round of the element loop. -/
theorem round_spec (w : Witness) (n : Nat) (es : List Bytes) (q c : Bytes) (pos : Nat) (hB : w.Base n es) (hE : w.Elem es q) (hll : w.lenLen = 1)
    (hc : c ≠ []) (hpos : pos = 1 + (flat es).length + q.length) : RoundOk n es q c w.bytesParsed (w.round pos (.of c)) := by
  have hoff : pos - lenVarIntN w.numElements - q.length = (flat es).length := by
    rw [hB.num, lenVarIntN_eq _ (by have := hB.small; omega), compactSize_small hB.small, List.length_singleton]; omega
  rcases hE with ⟨rfl, h0, harr⟩ | ⟨b, r, rfl, hb, h1, h2, h3, hv, hl, hcb, hlt, harr⟩
  · obtain ⟨b, c, rfl⟩ := List.exists_cons_of_ne_nil hc
    rw [List.length_nil, ← h0] at hoff
    obtain ⟨hok, hno⟩ := elemLen_fresh w b c h0
    by_cases htl : tooLong (extraBytes b) (c.take (extraBytes b))
    · -- more length bytes than supported
      rw [round_none _ _ _ (hno htl)]
      have hff : b = 0xff := by
        by_contra hb
        have := Script.extraBytes_le b hb
        rcases htl with h | ⟨h, _⟩
        · rw [List.length_take] at h; omega
        · omega
      subst hff
      rw [Script.extraBytes_ff] at htl
      have hbad : readVar ([] ++ 0xff :: c) = .bad := by
        simp only [List.nil_append, readVar, if_true]
        rw [if_neg]
        rintro (h5 | ⟨h5, h6⟩)
        · rcases htl with h4 | ⟨_, h4, _⟩ <;> (rw [List.length_take] at h4; omega)
        · rw [List.take_of_length_le (by omega)] at htl
          rcases htl with h4 | ⟨_, h4, h7⟩ <;> omega
      unfold RoundOk
      rw [hbad]
      exact ⟨_, List.suffix_rfl, Or.inl ⟨rfl, by simp⟩⟩
    · rw [round_some _ _ _ _ _ _ (hok htl), hoff]
      by_cases hcut : c.length < extraBytes b
      · -- the prefix is cut
        have et : c.take (extraBytes b) = c := List.take_of_length_le (by omega)
        have ed : c.drop (extraBytes b) = [] := List.drop_of_length_le (by omega)
        have em : min (extraBytes b) c.length = c.length := by omega
        rw [et] at htl
        rw [et, ed, em]
        have hne : ¬ (w.curBytesParsed + (1 + c.length) = extraBytes b + 1) := by omega
        have hcl : c.length ≤ 4 := by by_contra hh; exact htl (Or.inl (by omega))
        have hacc : accVal b c = leValue c := by
          unfold accVal
          rw [if_neg (by omega)]
          unfold accLen
          rw [if_neg]
          rintro ⟨h5, h6⟩
          have : extraBytes b = 8 := by
            by_contra h8
            have : b ≠ 0xff := by rintro rfl; exact h8 Script.extraBytes_ff
            have := Script.extraBytes_le b this
            omega
          exact htl (Or.inr ⟨this, h5, h6⟩)
        have hmore : readVar ([] ++ b :: c) = .more := by
          simp only [List.nil_append, readVar]
          split_ifs with h5 h6 h7 h8 h9
          · rfl
          · exfalso
            subst h5
            have := (not_or.mp htl).2
            rw [Script.extraBytes_ff] at this
            omega
          · rfl
        unfold RoundOk
        rw [hmore]
        unfold roundTail
        rw [if_neg (fun h => hne h.2), elemAlloc_idle _ _ _ (fun h => hne h.1)]
        simp only
        unfold roundBody
        simp only [PStream.readN_of, List.take_nil, List.drop_nil, writeAt, if_true, List.length_nil, Nat.add_zero]
        have hCut : CutElem ([] ++ b :: c) := ⟨b, c, rfl, hcut, htl⟩
        rw [show (b :: c).length = 1 + c.length by rw [List.length_cons, Nat.add_comm]]
        split_ifs with hph
        · refine ⟨_, rfl, rfl, hll, Or.inr ⟨hCut, harr, hB.status, hB.num, Or.inr ⟨by simp [hB.cur], b, c, rfl, hcut, htl, ?_⟩⟩⟩
          simp only [hacc] at hph
          simp only [List.nil_append, List.length_cons]
          omega
        · exact ⟨_, rfl, rfl, hll, Or.inr ⟨hCut, harr, hB.status, hB.num, Or.inl hB.cur⟩⟩
      · -- the prefix is complete
        have em : min (extraBytes b) c.length = extraBytes b := by omega
        rw [em]
        have hb : b ≠ 0xff := by
          rintro rfl
          rw [Script.extraBytes_ff] at htl hcut
          exact htl (Or.inl (by rw [List.length_take]; omega))
        have hk4 := Script.extraBytes_le b hb
        generalize hr1 : c.take (extraBytes b) = r1
        have hr1l : r1.length = extraBytes b := by rw [← hr1]; simp; omega
        have hrc : c = r1 ++ c.drop (extraBytes b) := by rw [← hr1, List.take_append_drop]
        have hpv : prefixValue b c = prefixValue b r1 := by
          rw [hrc, Script.prefixValue_append _ _ _ (by omega)]
        have hfull : w.curBytesParsed + (1 + extraBytes b) = extraBytes b + 1 := by omega
        by_cases hbig : extraBytes b ≠ 0 ∧ 2 ^ 31 ≤ leValue r1
        · have hp1 : prefixValue b r1 = leValue r1 := by
            rw [Script.prefixValue_pos _ _ hbig.1, List.take_of_length_le (by omega)]
          have hbad : readVar ([] ++ b :: c) = .bad := by
            simp only [List.nil_append, readVar, if_neg hb]
            rw [if_neg (by omega), hpv, hp1, if_pos (Or.inr hbig.2)]
          have h6 : r1.length = 4 := by
            by_contra hne
            have h1 := leValue_lt r1
            have h2 : (256 : Nat) ^ r1.length ≤ 256 ^ 3 := Nat.pow_le_pow_right (by omega) (by omega)
            omega
          unfold RoundOk
          rw [hbad]
          unfold roundTail
          rw [if_pos]
          · exact ⟨_, (List.drop_suffix _ _).trans (List.suffix_cons b c), Or.inr ⟨_, _, rfl, rfl, by simp [hb]⟩⟩
          · refine ⟨?_, hfull⟩
            simp only [accVal, if_neg hbig.1, accLen, h6, hbig.2, and_self, if_true]
            have h1 := leValue_lt r1
            rw [h6] at h1
            rw [lenVarIntN_eq _ (by omega), compactSize_8 (by omega)]
            simp only [List.length_cons, length_leBytes]
            omega
        · have hacc : accVal b r1 = prefixValue b r1 := by
            by_cases h0 : extraBytes b = 0
            · simp [accVal, prefixValue, h0]
            · exact accVal_eq b r1 hr1l (fun hh => hbig ⟨h0, hh⟩)
          have hlt31 : prefixValue b r1 < 2 ^ 31 := by
            by_cases h0 : extraBytes b = 0
            · simp only [prefixValue, h0, if_true]; have := b.toNat_lt; omega
            · rw [Script.prefixValue_pos _ _ h0, List.take_of_length_le (by omega)]
              by_contra hh; exact hbig ⟨h0, by omega⟩
          by_cases hcan : (compactSize (prefixValue b r1)).length = extraBytes b + 1
          · unfold roundTail
            rw [if_neg]
            · rw [elemAlloc_new _ _ _ (by simp only; exact hfull) (by omega) (by simp only [hacc]; omega) (by rw [harr])]
              simp only
              have hc1 := prefix_canonical b r1 hb (by omega) hcan hlt31
              rw [List.take_of_length_le (by omega)] at hc1
              have := roundBody_spec { w with curElementLen := accVal b r1, curLen := extraBytes b + 1, arr := w.arr ++ (compactSize (accVal b r1) ++ zeros (accVal b r1)) } n es (1 + extraBytes b) b r1 [] [] (b :: r1)
                (c.drop (extraBytes b)) ⟨hB.status, hB.num, hB.small, hB.cur⟩ hb rfl (by rw [List.length_cons]; omega) h0 (by omega) hcan hlt31 hacc rfl
                (by rw [List.drop_of_length_le (by omega)]) (by simp) hll
                (by simp only [hacc, harr, ← hc1]; rfl)
              rw [List.cons_append, ← hrc] at this
              exact this
            · simp only [hacc]
              rw [lenVarIntN_eq _ (by omega), hcan]; simp
          · have hbad : readVar ([] ++ b :: c) = .bad := by
              simp only [List.nil_append, readVar, if_neg hb]
              rw [if_neg (by omega), hpv, if_pos (Or.inl hcan)]
            unfold RoundOk
            rw [hbad]
            unfold roundTail
            rw [if_pos]
            · exact ⟨_, (List.drop_suffix _ _).trans (List.suffix_cons b c), Or.inr ⟨_, _, rfl, rfl, by simp [hb]⟩⟩
            · refine ⟨?_, hfull⟩
              simp only [hacc]
              rw [lenVarIntN_eq _ (by omega)]; exact hcan
  · rw [← hcb] at hoff
    rw [round_some _ _ _ _ _ _ (elemLen_mid w c (by rw [hcb]; simp) (by rw [hl, hcb]; simp; omega)), hoff]
    unfold roundTail
    rw [if_neg (by rw [hv, lenVarIntN_eq _ (by omega), h2, hl]; simp), elemAlloc_idle _ _ _ (by omega)]
    simp only
    exact roundBody_spec w n es 0 b r (r.drop (extraBytes b)) (b :: r) [] c hB hb (by simp) rfl hcb h1 h2 h3 hv hl rfl (by omega) hll harr

/-- State between two calls after the bytes `p` have been consumed. -/
structure Mid (w : Witness) (p : Bytes) : Prop where
  parsed : w.bytesParsed = p.length
  lenLen : w.lenLen = 1
  shape : ∃ n es q, p = UInt8.ofNat n :: (flat es ++ q) ∧ es.length < n ∧ (∀ e ∈ es, e.length < 2 ^ 31) ∧ w.Base n es ∧ w.Elem es q

/-- The bytes so far end inside a length prefix of several bytes; `es` are the complete elements. -/
def CutAt (p : Bytes) (n : Nat) (es : List Bytes) (q : Bytes) : Prop :=
  p = UInt8.ofNat n :: (flat es ++ q) ∧ es.length < n ∧ n < 253 ∧ (∀ e ∈ es, e.length < 2 ^ 31) ∧ CutElem q

/-- What the element loop must produce. -/
def LoopOk (n : Nat) (es : List Bytes) (q c : Bytes) (bp br : Nat) (w' : Witness) (ret : Nat) (s' : PStream) : Prop :=
  match readMany readVar (n - es.length) (q ++ c) with
  | .ok ds r => w'.status = .done ∧ w'.Holds (es ++ ds) ∧ ret + r.length = br + c.length ∧ s' = .of r
  | .bad => w'.status.Stopped ∧ (w'.status = .ub ↔ wideMany (n - es.length) (q ++ c)) ∧ ∃ r, s' = .of r ∧ r <:+ c
  | .more => ret = br + c.length ∧ s' = .of [] ∧ ∃ es' q', flat es ++ (q ++ c) = flat es' ++ q' ∧ es'.length < n ∧ (∀ e ∈ es', e.length < 2 ^ 31) ∧
      ((w'.Base n es' ∧ w'.Elem es' q' ∧ w'.lenLen = 1 ∧ w'.bytesParsed = bp + ret) ∨
       (CutElem q' ∧ (w'.status = .incomplete ∨
          w'.status = .done ∧ n = es'.length + 1 ∧ Phantom q' ∧ w'.numElements = n ∧ w'.arr = flat es')))

theorem loop_idle (fuel : Nat) (w : Witness) (br : Nat) (s : PStream) (h : s.avail = false) : loop fuel w br s = loop.finish w br s := by
  cases fuel with
  | zero => rfl
  | succ fuel => unfold loop; rw [if_neg (by simp [h])]

theorem loop_next (fuel : Nat) (w w' : Witness) (br cr : Nat) (s s' : PStream) (h1 : s.avail = true) (h2 : w.curElement < w.numElements)
    (h3 : w.round (w.bytesParsed + br) s = .next w' cr s') : loop (fuel + 1) w br s = loop fuel w' (br + cr) s' := by
  conv_lhs => unfold loop
  rw [if_pos ⟨h1, h2⟩, h3]

theorem loop_bad (fuel : Nat) (w : Witness) (br : Nat) (s : PStream) (c : Bytes) (X : Prop) (h1 : s.avail = true) (h2 : w.curElement < w.numElements)
    (h3 : ∃ r, r <:+ c ∧ ((w.round (w.bytesParsed + br) s = .ub (.of r) ∧ X) ∨
      ∃ w' cr, w.round (w.bytesParsed + br) s = .fail w' cr (.of r) ∧ w'.status = .failed ∧ ¬ X)) :
    (loop (fuel + 1) w br s).1.status.Stopped ∧ ((loop (fuel + 1) w br s).1.status = .ub ↔ X) ∧
      ∃ r, (loop (fuel + 1) w br s).2.2 = .of r ∧ r <:+ c := by
  unfold loop
  rw [if_pos ⟨h1, h2⟩]
  obtain ⟨r, hr, ⟨h3, hx⟩ | ⟨w', cr, h3, h4, hx⟩⟩ := h3
  · rw [h3]; exact ⟨Or.inr rfl, by simp [hx], r, rfl, hr⟩
  · rw [h3]; exact ⟨Or.inl h4, by simp [h4, hx], r, rfl, hr⟩

theorem elem_more (w : Witness) (es : List Bytes) (q : Bytes) (h : w.Elem es q) : readVar q = .more := by
  rcases h with ⟨rfl, _⟩ | ⟨b, r, rfl, hb, h1, h2, h3, _, _, _, hlt, _⟩
  · rfl
  · rw [Script.readVar_body b r hb h1 h2 h3, if_pos hlt]

theorem loop_spec (n : Nat) : ∀ (m : Nat) (w : Witness) (es : List Bytes) (q c : Bytes) (br : Nat), m = n - es.length → es.length ≤ n →
    w.Base n es → w.Elem es q → (es.length = n → q = []) → (∀ e ∈ es, e.length < 2 ^ 31) → w.lenLen = 1 → w.bytesParsed + br = 1 + (flat es).length + q.length →
    LoopOk n es q c w.bytesParsed br (loop m w br (.of c)).1 (loop m w br (.of c)).2.1 (loop m w br (.of c)).2.2
  | 0, w, es, q, c, br, hm, hle, hB, hE, hq, hes, hll, hpos => by
    have hq := hq (by omega)
    subst hq
    unfold LoopOk
    rw [← hm]
    simp only [readMany, List.nil_append]
    unfold loop loop.finish
    have hcur : w.curElement = w.numElements := by rw [hB.cur, hB.num]; omega
    refine ⟨by simp [hcur], ?_, rfl, rfl⟩
    rcases hE with ⟨_, _, harr⟩ | ⟨b, r, h, _⟩
    · exact ⟨by simp only [hB.num, List.append_nil]; omega, by simp [harr]⟩
    · cases h
  | m + 1, w, es, q, c, br, hm, hle, hB, hE, hq, hes, hll, hpos => by
    have hlt : w.curElement < w.numElements := by rw [hB.cur, hB.num]; omega
    have hne : ¬ w.curElement = w.numElements := by omega
    by_cases hc : c = []
    · subst hc
      rw [loop_idle _ _ _ _ (by simp)]
      unfold LoopOk
      rw [← hm, List.append_nil, readMany_more _ (elem_more w es q hE)]
      refine ⟨rfl, rfl, es, q, rfl, by omega, hes, Or.inl ⟨⟨?_, hB.num, hB.small, hB.cur⟩, hE, hll, rfl⟩⟩
      unfold loop.finish
      simp only [if_neg hne]
      exact hB.status
    · have hav : (PStream.of c).avail = true := by cases c with | nil => exact absurd rfl hc | cons => simp
      have hR := round_spec w n es q c (w.bytesParsed + br) hB hE hll hc hpos
      unfold RoundOk at hR
      unfold LoopOk
      rw [← hm]
      cases e : readVar (q ++ c) with
      | bad =>
        rw [e] at hR
        rw [readMany_bad _ e]
        rw [wideMany_bad _ e]
        exact loop_bad m w br _ c _ hav hlt hR
      | more =>
        rw [e] at hR
        obtain ⟨w', h1, h2, h2b, h3⟩ := hR
        rw [readMany_more _ e, loop_next _ _ _ _ _ _ _ hav hlt h1, loop_idle _ _ _ _ (by simp)]
        refine ⟨rfl, rfl, es, q ++ c, rfl, by omega, hes, ?_⟩
        rcases h3 with ⟨hB', hE'⟩ | ⟨hcut, harr, hst, hnum, hcur⟩
        · left
          refine ⟨⟨?_, hB'.num, hB'.small, hB'.cur⟩, hE', h2b, by unfold loop.finish; simp [h2]⟩
          unfold loop.finish
          simp only
          rw [if_neg (by rw [hB'.num, hB'.cur]; omega)]
          exact hB'.status
        · right
          refine ⟨hcut, ?_⟩
          unfold loop.finish
          simp only
          by_cases hd : w'.curElement = w'.numElements
          · rw [if_pos hd]
            rcases hcur with hcur | ⟨hcur, hph⟩
            · omega
            · exact Or.inr ⟨rfl, by omega, hph, hnum, harr⟩
          · rw [if_neg hd]; exact Or.inl hst
      | ok d r =>
        rw [e] at hR
        obtain ⟨w', h1, h2, hB', hE', hbp, hll'⟩ := hR
        rw [loop_next _ _ _ _ _ _ _ hav hlt h1]
        have hso := codecVar.sound _ _ _ e
        have hlen : (q ++ c).length = (varBytes d).length + r.length := readVar_ok_length e
        rw [List.length_append] at hlen
        have ih := loop_spec n m w' (es ++ [d]) [] r (br + (c.length - r.length)) (by simp; omega) (by simp; omega) hB' hE' (fun _ => rfl)
          (by intro x hx; rcases List.mem_append.mp hx with hx | hx
              · exact hes x hx
              · rw [List.mem_singleton.mp hx]; exact hso.2) hll'
          (by rw [hbp, flat_snoc, List.length_append, List.length_nil]; omega)
        unfold LoopOk at ih
        rw [show n - (es ++ [d]).length = m by simp; omega, List.nil_append] at ih
        cases e2 : readMany readVar m r with
        | ok ds r2 =>
          rw [e2] at ih
          rw [readMany_ok_ok _ e e2]
          obtain ⟨i1, i2, i3, i4⟩ := ih
          refine ⟨i1, by simpa using i2, by omega, i4⟩
        | bad =>
          rw [e2] at ih
          rw [readMany_ok_bad _ e e2, wideMany_ok _ e]
          refine ⟨ih.1, ih.2.1, ?_⟩
          obtain ⟨r', e', hs'⟩ := ih.2.2
          exact ⟨r', e', hs'.trans (List.suffix_of_suffix_length_le (readVar_suffix e) (List.suffix_append q c) h2)⟩
        | more =>
          rw [e2] at ih
          rw [readMany_ok_more _ e e2]
          obtain ⟨i1, i2, es', q', i3, i4, i5, i6⟩ := ih
          refine ⟨by omega, i2, es', q', ?_, i4, i5, ?_⟩
          · rw [← i3, flat_snoc, hso.1, List.append_assoc]
          · rw [hbp] at i6; exact i6

/-- Feeding an empty stream to a witness not being parsed makes it fail. -/
theorem fromStream_empty (w : Witness) (h : w.status = .done) : (w.fromStream (.of [])).1.status = .failed ∧
    (w.fromStream (.of [])).2 = (0, .of []) := by
  unfold fromStream
  rw [if_neg (by rw [h]; simp)]
  unfold start
  simp only [h, if_true]
  rw [if_neg (by simp)]
  unfold fromStream.body
  rw [if_pos]
  · exact ⟨rfl, rfl⟩
  · refine ⟨rfl, ?_⟩
    show lenVarIntN 0 ≠ 0
    decide

/-- What a call must produce, unless the bytes so far end inside a length prefix. -/
def Outcome (w' : Witness) (ret : Nat) (s' : PStream) (p c : Bytes) : Prop :=
  match readWitness (p ++ c) with
  | .ok ds r => w'.status = .done ∧ w'.Holds ds ∧ ret + r.length = c.length ∧ s' = .of r
  | .bad => w'.status.Stopped ∧ (w'.status = .ub ↔ wideWitness (p ++ c)) ∧ ∃ r, s' = .of r ∧ r <:+ c
  | .more => ret = c.length ∧ s' = .of [] ∧
      ((w'.status = .incomplete ∧ w'.Mid (p ++ c)) ∨
       ∃ n es q, CutAt (p ++ c) n es q ∧ (w'.status = .incomplete ∨
          w'.status = .done ∧ n = es.length + 1 ∧ Phantom q ∧ w'.numElements = n ∧ w'.arr = flat es))

theorem feed (w : Witness) (p c : Bytes) (h : (w.status = .done ∧ p = [] ∧ c ≠ []) ∨ w.Mid p) :
    Outcome (w.fromStream (.of c)).1 (w.fromStream (.of c)).2.1 (w.fromStream (.of c)).2.2 p c := by
  -- the element loop, entered with the elements `es` and `q` of the next one consumed
  have key : ∀ (w : Witness) (n : Nat) (es : List Bytes) (q c' : Bytes) (br : Nat) (x : Bytes), p ++ c = UInt8.ofNat n :: (flat es ++ (q ++ c')) →
      c = x ++ c' → x.length = br → es.length ≤ n → w.Base n es → w.Elem es q → (es.length = n → q = []) → (∀ e ∈ es, e.length < 2 ^ 31) → w.lenLen = 1 →
      w.bytesParsed = p.length → Outcome (fromStream.body w br (.of c')).1 (fromStream.body w br (.of c')).2.1 (fromStream.body w br (.of c')).2.2 p c := by
    intro w n es q c' br x hpc hcx hx hle hB hE hq hes hll hbp
    have hlen := congrArg List.length hpc
    have hcl := congrArg List.length hcx
    simp only [List.length_append, List.length_cons] at hlen hcl
    have hn := hB.small
    unfold fromStream.body
    rw [if_neg (by rw [hll, hB.num, lenVarIntN_eq _ (by omega), compactSize_small hn]; simp)]
    have hL := loop_spec n (n - es.length) w es q c' br rfl hle hB hE hq hes hll (by omega)
    rw [hB.num, hB.cur]
    generalize loop (n - es.length) w br (.of c') = R at hL ⊢
    obtain ⟨w', ret, s'⟩ := R
    simp only at hL ⊢
    have hnb : (UInt8.ofNat n).toNat = n := by simp; omega
    have hnlt : UInt8.ofNat n < 0xfd := by rw [UInt8.lt_iff_toNat_lt, hnb]; exact hn
    have hrw : readWitness (p ++ c) = match readMany readVar (n - es.length) (q ++ c') with
        | .ok ds r => .ok (es ++ ds) r | .more => .more | .bad => .bad := by
      rw [hpc]
      simp only [readWitness, if_pos hnlt, hnb]
      clear hnb hnlt hpc hlen hL hB hE hq
      have : ∀ (es : List Bytes) (n : Nat) (z : Bytes), es.length ≤ n → (∀ e ∈ es, e.length < 2 ^ 31) → readMany readVar n (flat es ++ z) =
          match readMany readVar (n - es.length) z with
          | .ok ds r => .ok (es ++ ds) r | .more => .more | .bad => .bad := by
        intro es
        induction es with
        | nil => intro n z _ _; simp only [flat, List.flatMap_nil, List.nil_append, List.length_nil, Nat.sub_zero]; cases readMany readVar n z <;> rfl
        | cons e es ih =>
          intro n z hl hm
          obtain ⟨n, rfl⟩ : ∃ k, n = k + 1 := ⟨n - 1, by simp at hl; omega⟩
          have e1 : readVar (flat (e :: es) ++ z) = .ok e (flat es ++ z) := by
            simp only [flat, List.flatMap_cons, List.append_assoc]
            exact readVar_varBytes e _ (hm e (by simp))
          have i := ih n z (by simpa using hl) (fun x hx => hm x (by simp [hx]))
          simp only [List.length_cons, Nat.add_sub_add_right]
          cases h : readMany readVar (n - es.length) z with
          | ok ds r => rw [h] at i; rw [readMany_ok_ok _ e1 i]; rfl
          | more => rw [h] at i; rw [readMany_ok_more _ e1 i]
          | bad => rw [h] at i; rw [readMany_ok_bad _ e1 i]
      exact this es n _ hle hes
    unfold LoopOk at hL
    unfold Outcome
    rw [hrw]
    cases e : readMany readVar (n - es.length) (q ++ c') with
    | ok ds r =>
      rw [e] at hL
      obtain ⟨i1, i2, i3, i4⟩ := hL
      exact ⟨i1, i2, by omega, i4⟩
    | bad =>
      rw [e] at hL
      refine ⟨hL.1, ?_, ?_⟩
      · rw [hL.2.1, hpc]
        simp only [wideWitness, hnlt, hnb, true_and]
        clear hnb hnlt hpc hlen hL hB hE hq hrw e
        induction es generalizing n with
        | nil => simp [flat]
        | cons e es ih =>
          obtain ⟨n, rfl⟩ : ∃ k, n = k + 1 := ⟨n - 1, by simp at hle; omega⟩
          have e1 : readVar (flat (e :: es) ++ (q ++ c')) = .ok e (flat es ++ (q ++ c')) := by
            simp only [flat, List.flatMap_cons, List.append_assoc]
            exact readVar_varBytes e _ (hes e (by simp))
          rw [wideMany_ok _ e1, List.length_cons, Nat.add_sub_add_right]
          exact ih n (by simpa using hle) (fun x hx => hes x (by simp [hx])) (by omega)
      · obtain ⟨r, e', hr⟩ := hL.2.2
        exact ⟨r, e', hr.trans (by rw [hcx]; exact List.suffix_append _ _)⟩
    | more =>
      rw [e] at hL
      obtain ⟨i1, i2, es', q', i3, i4, i5, i6⟩ := hL
      refine ⟨by omega, i2, ?_⟩
      rcases i6 with ⟨k1, k2, k3, k4⟩ | ⟨k1, k2⟩
      · left
        refine ⟨k1.status, ⟨by rw [k4, List.length_append]; omega, k3, n, es', q', by rw [hpc, i3], i4, i5, k1, k2⟩⟩
      · right
        exact ⟨n, es', q', ⟨by rw [hpc, i3], i4, hn, i5, k1⟩, k2⟩
  rcases h with ⟨hst, rfl, hc⟩ | hm
  · obtain ⟨b, c, rfl⟩ := List.exists_cons_of_ne_nil hc
    unfold fromStream
    rw [if_neg (by rw [hst]; simp)]
    have hs : w.start = { ({ w with curLen := 0 }.reset.clear) with status := .incomplete } := by unfold start; simp [hst]
    have hbp : w.start.bytesParsed = 0 := by rw [hs]; rfl
    simp only
    rw [if_pos ⟨by simp, hbp⟩]
    have hrb : (PStream.of (b :: c)).readByte = (b, .of c) := rfl
    rw [hrb]
    simp only
    by_cases hb : b < 0xfd
    · rw [if_pos hb]
      have hb' : b.toNat < 253 := by rw [UInt8.lt_iff_toNat_lt] at hb; exact hb
      exact key _ b.toNat [] [] c 1 [b] (by simp) rfl rfl (by simp) ⟨by rw [hs], rfl, hb', by rw [hs]; rfl⟩
        (Or.inl ⟨rfl, by rw [hs]; rfl, by rw [hs]; rfl⟩) (fun _ => rfl) (by simp) rfl hbp
    · rw [if_neg hb]
      unfold Outcome
      simp only [List.nil_append, readWitness, if_neg hb]
      exact ⟨Or.inl rfl, by simp [wideWitness, hb], _, rfl, List.suffix_cons _ _⟩
  · obtain ⟨hbp, hll, n, es, q, hp, hlt, hes, hB, hE⟩ := hm
    unfold fromStream
    rw [if_neg (by rw [hB.status]; simp)]
    have hs : w.start = w := by
      have := hB.status
      unfold start
      cases w; simp_all
    rw [hs]
    simp only
    rw [if_neg (by rw [hbp, hp]; simp)]
    exact key w n es q c 0 [] (by rw [hp]; simp) rfl rfl (by omega) hB hE (by omega) hes hll hbp

end Witness

end UB
