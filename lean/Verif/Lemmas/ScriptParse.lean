import Verif.Spec.Abs
import Verif.Spec.Wide
import Verif.Lemmas.Parse
import Verif.Lemmas.ToStream
import Mathlib.Tactic.Ring
import Mathlib.Tactic.NormNum

namespace UB

open Spec

/-- A raw stream delivering exactly these bytes. -/
abbrev PStream.of (bs : Bytes) : PStream := ⟨bs, false⟩

@[simp] theorem PStream.avail_of (bs : Bytes) : (PStream.of bs).avail = !bs.isEmpty := by
  simp [PStream.avail]

@[simp] theorem PStream.readN_of (bs : Bytes) (n : Nat) : (PStream.of bs).readN n = (bs.take n, .of (bs.drop n)) := by
  simp [PStream.readN]

/-- FAILED, or undefined behaviour: the parser will never report DONE any more. -/
def Status.Stopped (s : Status) : Prop := s = .failed ∨ s = .ub

/-- A parser which has stopped: undefined behaviour only if `q`, all bytes it was given, contain the first byte of
an eight-byte length and at least four bytes behind it; what is left of the stream is a tail of the piece `c`. -/
def Halts (q c : Bytes) (st : Status) (s' : PStream) : Prop :=
  st.Stopped ∧ (st = .ub → Wide q) ∧ ∃ r, s' = .of r ∧ r <:+ c

/-- Value accumulated from length bytes. -/
def accLen (r : Bytes) : Nat :=
  if r.length = 4 ∧ 2 ^ 31 ≤ leValue r then leValue r + (2 ^ 64 - 2 ^ 32) else leValue r

theorem leValue_snoc (r : Bytes) (b : UInt8) : leValue (r ++ [b]) = leValue r + b.toNat * 256 ^ r.length := by
  induction r with
  | nil => simp [leValue_cons, leValue_nil]
  | cons a r ih => simp only [List.cons_append, leValue_cons, ih, List.length_cons, pow_succ]; ring

theorem accLen_lt (r : Bytes) (h : r.length ≤ 4) : accLen r < 2 ^ 64 := by
  have := leValue_lt r
  have h2 : (256 : Nat) ^ r.length ≤ 256 ^ 4 := Nat.pow_le_pow_right (by omega) h
  unfold accLen; split <;> omega

theorem accLen_small (r : Bytes) (h : r.length < 4) : accLen r = leValue r := by
  unfold accLen; rw [if_neg]; omega

theorem accLen_snoc (r : Bytes) (b : UInt8) (h : r.length < 4) :
    ∃ v, intShl b (8 * r.length) = some v ∧ (accLen r + v) % 2 ^ 64 = accLen (r ++ [b]) := by
  have hb := b.toNat_lt
  have hl := leValue_lt r
  rw [accLen_small r h]
  unfold intShl
  rw [if_neg (by omega)]
  refine ⟨_, rfl, ?_⟩
  unfold accLen
  rw [leValue_snoc]
  have e : (2 : Nat) ^ (8 * r.length) = 256 ^ r.length := by rw [pow_mul]; norm_num
  rw [e]
  simp only [List.length_append, List.length_singleton]
  generalize leValue r = L at *
  obtain h0 | h0 | h0 | h0 : r.length = 0 ∨ r.length = 1 ∨ r.length = 2 ∨ r.length = 3 := by omega
  all_goals
    rw [h0] at hl ⊢
    norm_num at hl ⊢
    split_ifs <;> omega

/-- More length bytes than are supported: a fifth one, or four of eight with the top bit set. -/
def tooLong (k : Nat) (x : Bytes) : Prop := 4 < x.length ∨ (k = 8 ∧ x.length = 4 ∧ 2 ^ 31 ≤ leValue x)

theorem lenLoop_spec : ∀ (fuel k : Nat) (r bs : Bytes), r.length + fuel = k → ¬ tooLong k r →
    (¬ tooLong k (r ++ bs.take fuel) → lenLoop fuel (accLen r) (1 + r.length) (.of bs) =
        some (accLen (r ++ bs.take fuel), 1 + r.length + min fuel bs.length, .of (bs.drop fuel))) ∧
    (tooLong k (r ++ bs.take fuel) → lenLoop fuel (accLen r) (1 + r.length) (.of bs) = none)
  | 0, k, r, bs, hk, h => by simp [lenLoop, h]
  | fuel + 1, k, r, [], hk, h => by simp [lenLoop, h]
  | fuel + 1, k, r, b :: bs, hk, h => by
    have hr4 : r.length ≤ 4 := by by_contra h4; exact h (Or.inl (by omega))
    unfold lenLoop
    simp only [PStream.avail_of, List.isEmpty_cons, Bool.not_false, if_true, PStream.read]
    by_cases h4 : r.length = 4
    · have : intShl b (8 * (1 + r.length - 1)) = none := by simp [intShl, h4]
      have ht : tooLong k (r ++ (b :: bs).take (fuel + 1)) := Or.inl (by simp; omega)
      rw [this, if_neg (by omega)]
      exact ⟨fun h => absurd ht h, fun _ => rfl⟩
    · obtain ⟨v, e1, e2⟩ := accLen_snoc r b (by omega)
      have hb := b.toNat_lt
      have hlv := leValue_lt r
      have h80 : (0x80 : UInt8) ≤ b ↔ 128 ≤ b.toNat := by rw [UInt8.le_iff_toNat_le]; rfl
      have htl : tooLong k (r ++ [b]) ↔ 1 + r.length = 4 ∧ fuel = 4 ∧ 0x80 ≤ b := by
        unfold tooLong
        rw [leValue_snoc, List.length_append, List.length_singleton, h80]
        constructor
        · rintro (h1 | ⟨h1, h2, h3⟩)
          · omega
          · refine ⟨by omega, by omega, ?_⟩
            have h5 : r.length = 3 := by omega
            rw [h5] at h3 hlv
            omega
        · rintro ⟨h1, h2, h3⟩
          refine Or.inr ⟨by omega, by omega, ?_⟩
          have h5 : r.length = 3 := by omega
          rw [h5]; omega
      rw [show 1 + r.length - 1 = r.length by omega]
      by_cases hcut : 1 + r.length = 4 ∧ fuel = 4 ∧ 0x80 ≤ b
      · rw [if_pos hcut]
        have ht : tooLong k (r ++ (b :: bs).take (fuel + 1)) := by
          cases bs with
          | nil => simpa using htl.mpr hcut
          | cons b2 bs =>
            left
            simp only [List.length_append, List.length_take, List.length_cons]
            omega
        exact ⟨fun h => absurd ht h, fun _ => rfl⟩
      · rw [if_neg hcut, e1]
        simp only [e2]
        obtain ⟨i1, i2⟩ := lenLoop_spec fuel k (r ++ [b]) bs (by simp; omega) (fun h => hcut (htl.mp h))
        simp only [List.length_append, List.length_singleton, List.append_assoc, List.singleton_append] at i1 i2
        rw [show 1 + r.length + 1 = 1 + (r.length + 1) by omega, List.take_succ_cons, List.drop_succ_cons, List.length_cons,
          show 1 + r.length + min (fuel + 1) (bs.length + 1) = 1 + (r.length + 1) + min fuel bs.length by omega]
        exact ⟨i1, i2⟩

namespace Script

/-- State between two calls after the bytes `p` have been consumed. -/
structure Mid (sc : Script) (p : Bytes) : Prop where
  status : sc.status = .incomplete
  parsed : sc.bytesParsed = p.length
  shape : ∃ b r, p = b :: r ∧ sc.lenLen = extraBytes b + 1 ∧
    ((r.length < extraBytes b ∧ ¬ tooLong (extraBytes b) r ∧ sc.scriptLen = accLen r) ∨
     (b ≠ 0xff ∧ extraBytes b ≤ r.length ∧ (compactSize (prefixValue b r)).length = extraBytes b + 1 ∧ prefixValue b r < 2 ^ 31 ∧
      sc.scriptLen = prefixValue b r ∧ (r.drop (extraBytes b)).length < sc.scriptLen ∧
      sc.arr = r.drop (extraBytes b) ++ zeros (sc.scriptLen - (r.drop (extraBytes b)).length)))

/-- Script.cpp:291-315, what follows the first byte. -/
def rest (sc : Script) (br : Nat) (s : PStream) : Script × Nat × PStream :=
  match lenLoop (sc.lenLen - (sc.bytesParsed + br)) sc.scriptLen (sc.bytesParsed + br) s with
  | none => ({ sc with status := .ub }, 0, s)
  | some (len, pos, s) => alloc { sc with scriptLen := len } (pos - sc.bytesParsed) s

theorem rest_some (sc : Script) (br len pos : Nat) (s s' : PStream)
    (h : lenLoop (sc.lenLen - (sc.bytesParsed + br)) sc.scriptLen (sc.bytesParsed + br) s = some (len, pos, s')) :
    sc.rest br s = alloc { sc with scriptLen := len } (pos - sc.bytesParsed) s' := by
  unfold rest; rw [h]

theorem rest_none (sc : Script) (br : Nat) (s : PStream)
    (h : lenLoop (sc.lenLen - (sc.bytesParsed + br)) sc.scriptLen (sc.bytesParsed + br) s = none) :
    sc.rest br s = ({ sc with status := .ub }, 0, s) := by
  unfold rest; rw [h]

theorem writeAt_fill (body bs : Bytes) (k : Nat) (h : bs.length ≤ k) :
    writeAt (body ++ zeros k) body.length bs = some (body ++ bs ++ zeros (k - bs.length)) := by
  unfold writeAt
  split_ifs with h1 h2
  · subst h1; simp
  · simp only [Option.some.injEq, List.take_left']
    congr 1
    rw [← List.drop_drop, List.drop_left, drop_zeros]
  · simp at h2; omega

/-- The outcome predicted by the declarative reader on all bytes so far. -/
def Outcome (sc' : Script) (ret : Nat) (s' : PStream) (p c : Bytes) : Prop :=
  match readVar (p ++ c) with
  | .more => sc'.Mid (p ++ c) ∧ ret = c.length ∧ s' = .of []
  | .ok d r => sc'.status = .done ∧ sc'.Holds d ∧ sc'.bytesParsed + r.length = (p ++ c).length ∧
      ret + r.length = c.length ∧ s' = .of r
  | .bad => sc'.status.Stopped ∧ (sc'.status = .ub ↔ ∃ r, p ++ c = 0xff :: r) ∧ ∃ r, s' = .of r ∧ r <:+ c

theorem extraBytes_le (b : UInt8) (h : b ≠ 0xff) : extraBytes b ≤ 4 := by
  revert h; revert b; apply forall_byte; decide +kernel

theorem extraBytes_ff : extraBytes 0xff = 8 := by decide

theorem readVar_body (b : UInt8) (r : Bytes) (hb : b ≠ 0xff) (h1 : extraBytes b ≤ r.length)
    (h2 : (compactSize (prefixValue b r)).length = extraBytes b + 1) (h3 : prefixValue b r < 2 ^ 31) :
    readVar (b :: r) = if (r.drop (extraBytes b)).length < prefixValue b r then .more
      else .ok ((r.drop (extraBytes b)).take (prefixValue b r)) ((r.drop (extraBytes b)).drop (prefixValue b r)) := by
  simp only [readVar, if_neg hb]
  rw [if_neg (by omega), if_neg (by rw [h2]; omega)]

theorem prefixValue_append (b : UInt8) (r c : Bytes) (h : extraBytes b ≤ r.length) : prefixValue b (r ++ c) = prefixValue b r := by
  unfold prefixValue; rw [List.take_append_of_le_length h]

/-- The script bytes proper. -/
theorem body_spec (sc : Script) (br : Nat) (p0 c : Bytes) (b : UInt8) (r0 c0 body : Bytes)
    (hst : sc.status = .incomplete) (hb : b ≠ 0xff) (hl : sc.lenLen = extraBytes b + 1)
    (hp0 : p0 ++ c0 = b :: r0) (hbr : c0.length = br) (hpar : sc.bytesParsed = p0.length)
    (h1 : extraBytes b ≤ r0.length) (h2 : (compactSize (prefixValue b r0)).length = extraBytes b + 1)
    (h3 : prefixValue b r0 < 2 ^ 31) (hsl : sc.scriptLen = prefixValue b r0) (hbody : body = r0.drop (extraBytes b))
    (hle : body.length ≤ sc.scriptLen) (harr : body = [] ∧ (sc.scriptLen = 0 → sc.arr = []) ∨ sc.arr = body ++ zeros (sc.scriptLen - body.length)) :
    Outcome (sc.alloc br (.of c)).1 (sc.alloc br (.of c)).2.1 (sc.alloc br (.of c)).2.2 p0 (c0 ++ c) := by
  have hlen : sc.bytesParsed + br = 1 + r0.length := by
    have := congrArg List.length hp0
    simp at this; omega
  have hbl : body.length = r0.length - extraBytes b := by rw [hbody]; simp
  unfold alloc
  rw [if_neg (by omega)]
  -- the array after the (re)allocation
  have ha : ∀ sc' : Script, sc' = (if sc.bytesParsed + br = sc.lenLen ∧ sc.scriptLen > 0 then
      { sc with arr := zeros sc.scriptLen } else sc) →
      sc'.status = .incomplete ∧ sc'.lenLen = sc.lenLen ∧ sc'.bytesParsed = sc.bytesParsed ∧ sc'.scriptLen = sc.scriptLen ∧
      sc'.arr = body ++ zeros (sc.scriptLen - body.length) := by
    intro sc' e
    rw [e]
    split_ifs with hh
    · have : body = [] := by apply List.length_eq_zero_iff.mp; omega
      simp [hst, this]
    · refine ⟨hst, rfl, rfl, rfl, ?_⟩
      rcases harr with ⟨hn, hz⟩ | harr
      · have : sc.scriptLen = 0 := by
          have : body.length = 0 := by rw [hn]; rfl
          by_contra hne
          exact hh ⟨by omega, by omega⟩
        simp [this, hz this, zeros, hn]
      · exact harr
  obtain ⟨a1, a2, a3, a4, a5⟩ := ha _ rfl
  generalize (if sc.bytesParsed + br = sc.lenLen ∧ sc.scriptLen > 0 then { sc with arr := zeros sc.scriptLen } else sc) = sc' at *
  simp only
  have hv : lenVarIntN sc'.scriptLen = sc'.lenLen := by
    rw [a4, hsl, lenVarIntN_eq _ (by omega), h2, a2, hl]
  rw [if_neg (by rw [hv]; simp)]
  -- reading
  unfold readBody
  simp only [PStream.readN_of]
  have hpos : sc'.bytesParsed + br - sc'.lenLen = body.length := by rw [a2, a3]; omega
  have hrem : sc'.scriptLen + sc'.lenLen - (sc'.bytesParsed + br) = sc.scriptLen - body.length := by rw [a2, a3, a4]; omega
  rw [hpos, hrem, a5, writeAt_fill _ _ _ (by rw [List.length_take]; omega)]
  simp only
  -- prediction
  have hpc : p0 ++ (c0 ++ c) = b :: (r0 ++ c) := by rw [← List.append_assoc, hp0]; rfl
  unfold Outcome
  rw [hpc, readVar_body b (r0 ++ c) hb (by simp; omega) (by rw [prefixValue_append _ _ _ h1]; exact h2)
    (by rw [prefixValue_append _ _ _ h1]; exact h3), prefixValue_append _ _ _ h1]
  have hd : (r0 ++ c).drop (extraBytes b) = body ++ c := by rw [List.drop_append_of_le_length h1, hbody]
  rw [hd, ← hsl]
  have hlen2 : (p0 ++ (c0 ++ c)).length = 1 + r0.length + c.length := by rw [hpc]; simp; omega
  have hp0l : p0.length + c0.length = 1 + r0.length := by have := congrArg List.length hp0; simp at this; omega
  by_cases hlt : (body ++ c).length < sc.scriptLen
  · rw [if_pos hlt]
    simp only
    have hlt' : body.length + c.length < sc.scriptLen := by simpa using hlt
    have et : c.take (sc.scriptLen - body.length) = c := List.take_of_length_le (by omega)
    have ed : c.drop (sc.scriptLen - body.length) = [] := List.drop_of_length_le (by omega)
    rw [et, ed]
    refine ⟨⟨?_, ?_, b, r0 ++ c, rfl, ?_, Or.inr ⟨hb, by rw [List.length_append]; omega, ?_, ?_, ?_, ?_, ?_⟩⟩, ?_, rfl⟩
    · simp only; rw [if_neg (by rw [a2, a3, a4]; omega)]; exact a1
    · simp only [List.length_cons, List.length_append]; rw [a3]; omega
    · simp [a2, hl]
    · rw [prefixValue_append _ _ _ h1]; exact h2
    · rw [prefixValue_append _ _ _ h1]; exact h3
    · rw [prefixValue_append _ _ _ h1, ← hsl]; exact a4
    · rw [hd]; simp only; rw [a4]; exact hlt
    · rw [hd]; simp only; rw [a4]; congr 2; simp; omega
    · simp; omega
  · rw [if_neg hlt]
    have hlt' : sc.scriptLen ≤ body.length + c.length := by simp at hlt; omega
    have lt : (c.take (sc.scriptLen - body.length)).length = sc.scriptLen - body.length := by simp; omega
    have et : (body ++ c).take sc.scriptLen = body ++ c.take (sc.scriptLen - body.length) := by
      rw [List.take_append, List.take_of_length_le hle]
    have ed : (body ++ c).drop sc.scriptLen = c.drop (sc.scriptLen - body.length) := by
      rw [List.drop_append, List.drop_of_length_le hle]; rfl
    rw [et, ed, lt]
    refine ⟨?_, ⟨?_, ?_⟩, ?_, ?_, rfl⟩
    · simp only; rw [if_pos (by rw [a2, a3, a4]; omega)]
    · simp only [List.length_append, lt]; rw [a4]; omega
    · simp only [Nat.sub_self]; simp [zeros]
    · simp only [List.length_drop, List.length_cons, List.length_append]; rw [a3]; omega
    · simp; omega

theorem rest_done (sc : Script) (br : Nat) (p0 c c0 r0 : Bytes) (b : UInt8)
    (hst : sc.status = .incomplete) (hl : sc.lenLen = extraBytes b + 1)
    (hp0 : p0 ++ c0 = b :: r0) (hbr : c0.length = br) (hpar : sc.bytesParsed = p0.length) (hk : extraBytes b = 0)
    (hr0 : r0 = []) (hsl : sc.scriptLen = b.toNat) (harr : sc.scriptLen = 0 → sc.arr = []) :
    Outcome (sc.rest br (.of c)).1 (sc.rest br (.of c)).2.1 (sc.rest br (.of c)).2.2 p0 (c0 ++ c) := by
  subst hr0
  have hlen : sc.bytesParsed + br = 1 := by
    have := congrArg List.length hp0
    simp at this; omega
  have e : (1 - sc.bytesParsed) = br := by omega
  rw [rest_some sc br sc.scriptLen 1 (.of c) (.of c) (by rw [hl, hk, hlen]; simp [lenLoop]), e]
  have hb : b ≠ 0xff := by rintro rfl; revert hk; decide
  have hlt : b.toNat < 253 := by
    rcases byte_cases b with ⟨_, h⟩ | rfl | rfl | rfl
    · exact h
    all_goals (revert hk; decide)
  have hpv : prefixValue b [] = b.toNat := by simp [prefixValue, hk]
  exact body_spec sc br p0 c b [] c0 [] hst hb hl hp0 hbr hpar (by omega) (by rw [hpv, compactSize_small hlt, hk]; rfl)
    (by rw [hpv]; omega) (by rw [hpv]; exact hsl) (by simp) (by simp) (Or.inl ⟨rfl, harr⟩)

theorem prefixValue_pos (b : UInt8) (r : Bytes) (h : extraBytes b ≠ 0) : prefixValue b r = leValue (r.take (extraBytes b)) := by
  simp [prefixValue, h]

theorem rest_prefix (sc : Script) (br : Nat) (p0 c c0 r0 : Bytes) (b : UInt8)
    (hst : sc.status = .incomplete) (hl : sc.lenLen = extraBytes b + 1)
    (hp0 : p0 ++ c0 = b :: r0) (hbr : c0.length = br) (hpar : sc.bytesParsed = p0.length)
    (hk : r0.length < extraBytes b) (hr : ¬ tooLong (extraBytes b) r0) (hsl : sc.scriptLen = accLen r0) :
    Outcome (sc.rest br (.of c)).1 (sc.rest br (.of c)).2.1 (sc.rest br (.of c)).2.2 p0 (c0 ++ c) := by
  have hlen : sc.bytesParsed + br = 1 + r0.length := by
    have := congrArg List.length hp0
    simp at this; omega
  have hpc : p0 ++ (c0 ++ c) = b :: (r0 ++ c) := by rw [← List.append_assoc, hp0]; rfl
  have suffix_drop : ∀ {k : Nat}, c.drop k <:+ c0 ++ c := (List.drop_suffix _ _).trans (List.suffix_append _ _)
  obtain ⟨hloop, hloop2⟩ := lenLoop_spec (extraBytes b - r0.length) (extraBytes b) r0 c (by omega) hr
  rw [← hsl] at hloop hloop2
  have hfu : sc.lenLen - (sc.bytesParsed + br) = extraBytes b - r0.length := by omega
  by_cases h4 : ¬ tooLong (extraBytes b) (r0 ++ c.take (extraBytes b - r0.length))
  · specialize hloop h4
    rw [rest_some _ _ _ _ _ _ (by rw [hfu, hlen]; exact hloop)]
    by_cases hc : c.length < extraBytes b - r0.length
    · -- the prefix is still incomplete
      have et : c.take (extraBytes b - r0.length) = c := List.take_of_length_le (by omega)
      have ed : c.drop (extraBytes b - r0.length) = [] := List.drop_of_length_le (by omega)
      have em : min (extraBytes b - r0.length) c.length = c.length := by omega
      rw [et] at h4
      have h4' : (r0 ++ c).length ≤ 4 := by by_contra hh; exact h4 (Or.inl (by omega))
      rw [List.length_append] at h4'
      rw [et, ed, em]
      have hmore : readVar (b :: (r0 ++ c)) = .more := by
        simp only [readVar]
        split_ifs with h5 h6 h7 h8 h9
        · rfl
        · exfalso
          subst h5
          have := (not_or.mp h4).2
          rw [extraBytes_ff, List.length_append] at this
          simp only [List.length_append] at h6
          omega
        · rfl
        all_goals (simp at h7; omega)
      unfold Outcome
      rw [hpc, hmore]
      simp only
      have hbp : sc.bytesParsed + (1 + r0.length + c.length - sc.bytesParsed) = 1 + r0.length + c.length := by omega
      unfold alloc
      have hne : ¬ (sc.bytesParsed + (1 + r0.length + c.length - sc.bytesParsed) = sc.lenLen) := by rw [hbp, hl]; omega
      simp only [hne, false_and, if_false]
      unfold readBody
      simp only [PStream.readN_of, List.take_nil, List.drop_nil, writeAt, if_true]
      refine ⟨⟨?_, ?_, b, r0 ++ c, rfl, hl, Or.inl ⟨by simp; omega, h4, rfl⟩⟩, ?_, trivial⟩
      · simp only [List.length_nil, Nat.add_zero]; rw [if_neg (by rw [hbp, hl]; omega)]; exact hst
      · simp only [List.length_nil, Nat.add_zero, List.length_cons, List.length_append]; omega
      · simp; omega
    · -- the prefix is complete
      have hb : b ≠ 0xff := by
        rintro rfl
        apply h4
        left
        rw [extraBytes_ff] at hc ⊢
        rw [List.length_append, List.length_take]
        omega
      have hk4 := extraBytes_le b hb
      have em : min (extraBytes b - r0.length) c.length = extraBytes b - r0.length := by omega
      rw [em]
      generalize hr1 : r0 ++ c.take (extraBytes b - r0.length) = r1
      have hr1l : r1.length = extraBytes b := by rw [← hr1]; simp; omega
      have hr1v : prefixValue b r1 = leValue r1 := by
        rw [prefixValue_pos _ _ (by omega), List.take_of_length_le (by omega)]
      have hr1c : r0 ++ c = r1 ++ c.drop (extraBytes b - r0.length) := by
        rw [← hr1, List.append_assoc, List.take_append_drop]
      have hbp : sc.bytesParsed + (1 + r0.length + (extraBytes b - r0.length) - sc.bytesParsed) = extraBytes b + 1 := by omega
      have hpv : prefixValue b (r0 ++ c) = leValue r1 := by
        rw [hr1c, prefixValue_append _ _ _ (by omega), hr1v]
      have hvlt : leValue r1 < 2 ^ 32 := by
        have h1 := leValue_lt r1
        have h2 : (256 : Nat) ^ r1.length ≤ 256 ^ 4 := Nat.pow_le_pow_right (by omega) (by omega)
        omega
      by_cases hbig : 2 ^ 31 ≤ leValue r1
      · -- a length of 2^31 or more: the allocation fails
        have hbad : readVar (b :: (r0 ++ c)) = .bad := by
          simp only [readVar, if_neg hb]
          rw [if_neg (by simp; omega), hpv, if_pos (Or.inr hbig)]
        unfold Outcome
        rw [hpc, hbad]
        simp only
        have h6 : r1.length = 4 := by
          by_contra hne
          have h1 := leValue_lt r1
          have h2 : (256 : Nat) ^ r1.length ≤ 256 ^ 3 := Nat.pow_le_pow_right (by omega) (by omega)
          omega
        unfold alloc
        rw [if_pos]
        · exact ⟨Or.inl rfl, by simp [hb], _, rfl, suffix_drop⟩
        · simp only [hbp, hl, accLen, h6, hbig, and_self, if_true, true_and]
          omega
      · have hacc : accLen r1 = leValue r1 := by unfold accLen; rw [if_neg (by omega)]
        by_cases hcan : (compactSize (leValue r1)).length = extraBytes b + 1
        · have := body_spec { sc with scriptLen := accLen r1 } (1 + r0.length + (extraBytes b - r0.length) - sc.bytesParsed)
            p0 (c.drop (extraBytes b - r0.length)) b r1 (c0 ++ c.take (extraBytes b - r0.length)) [] hst hb hl
            (by rw [← List.append_assoc, hp0, List.cons_append, hr1]) (by simp; omega) hpar (by omega) (by rw [hr1v]; exact hcan)
            (by rw [hr1v]; omega) (by rw [hr1v]; exact hacc) (by rw [List.drop_of_length_le (by omega)]) (by simp)
            (Or.inl ⟨rfl, fun h0 => by
              exfalso
              simp only at h0
              rw [hacc] at h0
              rw [h0] at hcan
              simp [compactSize] at hcan; omega⟩)
          rw [List.append_assoc, List.take_append_drop] at this
          exact this
        · have hbad : readVar (b :: (r0 ++ c)) = .bad := by
            simp only [readVar, if_neg hb]
            rw [if_neg (by simp; omega), hpv, if_pos (Or.inl hcan)]
          unfold Outcome
          rw [hpc, hbad]
          simp only
          unfold alloc
          rw [if_neg (by simp only; rw [hacc]; omega)]
          have hv : lenVarIntN (leValue r1) ≠ extraBytes b + 1 := by rw [lenVarIntN_eq _ (by omega)]; exact hcan
          rw [if_pos]
          · exact ⟨Or.inl rfl, by simp [hb], _, rfl, suffix_drop⟩
          · split_ifs <;> simp only [hbp, hl, hacc] <;> exact ⟨trivial, hv⟩
  · rw [not_not] at h4
    rw [rest_none _ _ _ (by rw [hfu, hlen]; exact hloop2 h4)]
    have hb : b = 0xff := by
      by_contra hb
      have := extraBytes_le b hb
      rcases h4 with h4 | ⟨h4, _⟩
      · rw [List.length_append, List.length_take] at h4; omega
      · omega
    subst hb
    rw [extraBytes_ff] at h4
    have hbad : readVar (0xff :: (r0 ++ c)) = .bad := by
      simp only [readVar, if_true]
      rw [if_neg]
      rintro (h5 | ⟨h5, h6⟩)
      · rw [List.length_append] at h5
        rcases h4 with h4 | ⟨_, h4, _⟩ <;> (rw [List.length_append, List.length_take] at h4; omega)
      · rw [List.length_append] at h5
        have et : c.take (8 - r0.length) = c := List.take_of_length_le (by omega)
        rw [et] at h4
        rcases h4 with h4 | ⟨_, h4, h7⟩
        · rw [List.length_append] at h4; omega
        · omega
    unfold Outcome
    rw [hpc, hbad]
    exact ⟨Or.inr rfl, by simp, _, rfl, List.suffix_append _ _⟩

/-- A script not being parsed: DONE, and its block has the recorded size. -/
def Ready (sc : Script) : Prop := sc.status = .done ∧ sc.arr.length = sc.scriptLen

theorem start_ready (sc : Script) (h : sc.Ready) : sc.start.status = .incomplete ∧ sc.start.bytesParsed = 0 ∧ sc.start.arr = [] := by
  obtain ⟨h1, h2⟩ := h
  unfold start
  simp only [h1, if_true, clear]
  split_ifs with h3
  · simp
  · simp only [true_and]
    apply List.length_eq_zero_iff.mp; omega

theorem start_mid (sc : Script) (p : Bytes) (h : sc.Mid p) : sc.start = sc := by
  unfold start
  have := h.status
  cases sc; simp_all

theorem fromStream_eq (sc : Script) (s : PStream) (h : ¬ (sc.status = .failed ∨ sc.status = .ub)) :
    sc.fromStream s = (sc.start.readPrefix s).1.rest (sc.start.readPrefix s).2.1 (sc.start.readPrefix s).2.2 := by
  unfold fromStream rest
  rw [if_neg h]
  rfl

theorem readPrefix_cons (sc : Script) (b : UInt8) (c : Bytes) (h : sc.bytesParsed = 0) :
    sc.readPrefix (.of (b :: c)) = if b < 0xfd then
      ({ sc with scriptLen := b.toNat, lenLen := 1, arr := if b = 0 then sc.arr else zeros b.toNat }, 1, .of c)
    else
      ({ sc with scriptLen := 0, lenLen := 1 + 2 ^ (b.toNat - 0xfc), arr := zeros 255 }, 1, .of c) := by
  unfold readPrefix
  rw [if_pos ⟨by simp, h⟩]
  rfl

/-- Feeding the next bytes to a script parser. -/
theorem feed (sc : Script) (p c : Bytes) (h : (sc.Ready ∧ p = [] ∧ c ≠ []) ∨ sc.Mid p) :
    Outcome (sc.fromStream (.of c)).1 (sc.fromStream (.of c)).2.1 (sc.fromStream (.of c)).2.2 p c := by
  rcases h with ⟨hr, rfl, hc⟩ | hm
  · rw [fromStream_eq _ _ (by rw [hr.1]; simp)]
    obtain ⟨s1, s2, s3⟩ := start_ready sc hr
    obtain ⟨b, c', rfl⟩ := List.exists_cons_of_ne_nil hc
    rw [readPrefix_cons _ _ _ s2]
    rcases byte_cases b with ⟨hb, hb'⟩ | hb
    · rw [if_pos hb]
      have hk : extraBytes b = 0 := by simp [extraBytes, hb]
      exact rest_done _ 1 [] c' [b] [] b s1 (by simp [hk]) rfl rfl s2 hk rfl rfl (by
        intro h0
        simp only at h0 ⊢
        have : b = 0 := UInt8.toNat_inj.mp h0
        rw [if_pos this]; exact s3)
    · have hlt : ¬ b < 0xfd := by rcases hb with rfl | rfl | rfl <;> decide
      rw [if_neg hlt]
      have hk : 1 + 2 ^ (b.toNat - 0xfc) = extraBytes b + 1 := by rcases hb with rfl | rfl | rfl <;> decide
      have hk0 : 0 < extraBytes b := by rcases hb with rfl | rfl | rfl <;> decide
      exact rest_prefix _ 1 [] c' [b] [] b s1 hk rfl rfl s2 hk0 (by simp [tooLong]) (by simp [accLen, leValue_nil])
  · rw [fromStream_eq _ _ (by rw [hm.status]; simp), start_mid sc p hm]
    obtain ⟨hst, hpar, b, r, rfl, hl, hshape⟩ := hm
    unfold readPrefix
    rw [if_neg (by rw [hpar]; simp)]
    simp only
    rcases hshape with ⟨h1, h2, h3⟩ | ⟨h1, h2, h3, h4, h5, h6, h7⟩
    · exact rest_prefix sc 0 (b :: r) c [] r b hst hl (by simp) rfl hpar h1 h2 h3
    · rw [rest_some sc 0 sc.scriptLen sc.bytesParsed (.of c) (.of c) (by
        have : extraBytes b + 1 - ((b :: r).length + 0) = 0 := by simp; omega
        rw [hl, hpar, this]; rfl), Nat.sub_self]
      exact body_spec sc 0 (b :: r) c b r [] (r.drop (extraBytes b)) hst h1 hl (by simp) rfl hpar h2 h3 h4 h5 rfl (by omega) (Or.inr h7)

end Script

end UB
