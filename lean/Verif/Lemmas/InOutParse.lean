import Verif.Lemmas.ScriptParse
import Verif.Spec.Abs

set_option linter.unusedTactic false
set_option linter.unreachableTactic false

/-
Resumable parsing of inputs and outputs: after any bytes, the state is determined by the declarative
reader on all bytes so far.
-/

namespace UB
open Spec

theorem accLE_spec : ∀ (bs r : Bytes) (a : UInt32), a.toNat = leValue r → r.length + bs.length ≤ 4 →
    (accLE a r.length bs).toNat = leValue (r ++ bs)
  | [], r, a, h, _ => by simpa [accLE] using h
  | b :: bs, r, a, h, hl => by
    simp only [List.length_cons] at hl
    have := accLE_spec bs (r ++ [b]) (a + UInt32.ofNat (b.toNat * 256 ^ r.length)) (by
      rw [UInt32.toNat_add, UInt32.toNat_ofNat', h, leValue_snoc]
      have h1 := leValue_lt (r ++ [b])
      rw [leValue_snoc] at h1
      have h2 : (256 : Nat) ^ (r ++ [b]).length ≤ 256 ^ 4 := Nat.pow_le_pow_right (by omega) (by simp; omega)
      have h3 : b.toNat * 256 ^ r.length < 2 ^ 32 := by omega
      rw [Nat.mod_eq_of_lt h3, Nat.mod_eq_of_lt (by omega)]) (by simp; omega)
    simp only [List.length_append, List.length_singleton, List.append_assoc, List.singleton_append] at this
    simpa [accLE] using this

theorem readVar_mono {q d r : Bytes} (c : Bytes) (h : readVar q = .ok d r) : readVar (q ++ c) = .ok d (r ++ c) := by
  obtain ⟨h1, h2⟩ := codecVar.sound q d r h
  rw [h1, List.append_assoc]
  exact codecVar.complete d _ h2

theorem readVar_ok_length {q d r : Bytes} (h : readVar q = .ok d r) : q.length = (varBytes d).length + r.length := by
  rw [(codecVar.sound q d r h).1]; simp

theorem leValue_append_zeros (r : Bytes) (k : Nat) : leValue (r ++ zeros k) = leValue r := by
  induction r with
  | nil =>
    induction k with
    | zero => rfl
    | succ k ih => simp only [zeros, List.replicate_succ, List.nil_append, leValue_cons] at ih ⊢; simp [ih, leValue_nil]
  | cons a r ih => simp only [List.cons_append, leValue_cons, ih]

theorem Script.clear_len (sc : Script) (h : sc.arr.length = sc.scriptLen) : sc.clear.arr.length = sc.clear.scriptLen := by
  unfold clear; split_ifs <;> simp [h]

/-- What a call must produce, given the declarative reader on all bytes so far. -/
def Fed {β : Type} (rd : Bytes → Outcome β) (Mid : Bytes → Prop) (Done : β → Prop) (st : Status) (ret : Nat) (s' : PStream)
    (p c : Bytes) : Prop :=
  match rd (p ++ c) with
  | .more => st = .incomplete ∧ Mid (p ++ c) ∧ ret = c.length ∧ s' = .of []
  | .ok d r => st = .done ∧ Done d ∧ ret + r.length = c.length ∧ s' = .of r
  | .bad => Halts (p ++ c) c st s'

/-- `Fed`, with the exact condition `W` under which a stopped parser has met undefined behaviour. -/
def FedW {β : Type} (W : Bytes → Prop) (rd : Bytes → Outcome β) (Mid : Bytes → Prop) (Done : β → Prop) (st : Status) (ret : Nat)
    (s' : PStream) (p c : Bytes) : Prop :=
  match rd (p ++ c) with
  | .more => st = .incomplete ∧ Mid (p ++ c) ∧ ret = c.length ∧ s' = .of []
  | .ok d r => st = .done ∧ Done d ∧ ret + r.length = c.length ∧ s' = .of r
  | .bad => st.Stopped ∧ (st = .ub ↔ W (p ++ c)) ∧ ∃ r, s' = .of r ∧ r <:+ c

theorem FedW.fed {β : Type} {W : Bytes → Prop} {rd : Bytes → Outcome β} {Mid : Bytes → Prop} {Done : β → Prop} {st : Status} {ret : Nat}
    {s' : PStream} {p c : Bytes} (h : FedW W rd Mid Done st ret s' p c) (hw : ∀ q, rd q = .bad → W q → Wide q) :
    Fed rd Mid Done st ret s' p c := by
  unfold FedW at h
  unfold Fed
  cases e : rd (p ++ c) with
  | more => rw [e] at h; exact h
  | ok d r => rw [e] at h; exact h
  | bad => rw [e] at h; exact ⟨h.1, fun hu => hw _ e (h.2.1.mp hu), h.2.2⟩

/-- The length which starts at position `off` is an eight-byte one. -/
def WideAt (off : Nat) (q : Bytes) : Prop := ∃ r, q.drop off = 0xff :: r

theorem readVar_wide {r : Bytes} (h : readVar (0xff :: r) = .bad) : 4 ≤ r.length := by
  simp only [readVar, if_true] at h
  split_ifs at h with h1
  omega

theorem WideAt.wide {off : Nat} {q : Bytes} (h : WideAt off q) (hb : readVar (q.drop off) = .bad) : Wide q := by
  obtain ⟨r, e⟩ := h
  rw [e] at hb
  exact ⟨q.take off, r, by rw [← e, List.take_append_drop], readVar_wide hb⟩

/-- State of a sub-script whose first byte is the first byte of `q`, with `r0` the bytes behind it which
have been consumed. -/
def Script.At (sc : Script) (q r0 : Bytes) : Prop :=
  (q = [] ∧ r0 = [] ∧ sc.Ready) ∨
  (readVar q = .more ∧ r0 = [] ∧ sc.Mid q) ∨
  (∃ d, readVar q = .ok d r0 ∧ sc.status = .done ∧ sc.Holds d)

namespace TxIn

structure Mid (t : TxIn) (p : Bytes) : Prop where
  status : t.status = .incomplete
  parsed : t.bytesParsed = p.length
  hash_len : t.hash.length = 32
  hash : t.hash.take p.length = p.take 32
  index : t.outputIndex.toNat = leValue ((p.drop 32).take 4)
  script : ∃ r0, t.scriptSig.At (p.drop 36) r0 ∧ r0.length < 4 ∧ t.sequence.toNat = leValue r0

theorem readHead_spec (t : TxIn) (p c : Bytes) (hp : t.bytesParsed = p.length) (hh : t.hash.length = 32)
    (h1 : t.hash.take p.length = p.take 32) (h2 : t.outputIndex.toNat = leValue ((p.drop 32).take 4)) :
    ∃ hash' ix', t.readHead (.of c) = ({ t with hash := hash', outputIndex := ix' }, min c.length (36 - p.length), .of (c.drop (36 - p.length))) ∧
      hash'.length = 32 ∧ hash'.take (p ++ c).length = (p ++ c).take 32 ∧ ix'.toNat = leValue (((p ++ c).drop 32).take 4) := by
  unfold readHead
  simp only [PStream.readN_of, hp, List.drop_drop]
  refine ⟨_, _, Prod.ext rfl (Prod.ext ?_ ?_), ?_, ?_, ?_⟩
  · simp only [List.length_take, List.length_drop]; omega
  · simp only [List.length_take]
    by_cases hc : c.length ≤ 32 - p.length
    · rw [List.drop_of_length_le (by omega), List.drop_of_length_le (by omega)]
    · congr 2; omega
  · split_ifs
    · exact hh
    · simp [hh]; omega
  · split_ifs with h0
    · have : c = [] ∨ 32 ≤ p.length := by
        rcases List.take_eq_nil_iff.mp h0 with h | h
        · right; omega
        · left; exact h
      rcases this with rfl | h32
      · simpa using h1
      · rw [List.take_append_of_le_length h32, ← h1, List.take_of_length_le (by simp; omega), List.take_of_length_le (by omega)]
    · have h32 : p.length < 32 := by
        by_contra hcon
        exact h0 (by rw [show 32 - p.length = 0 by omega]; simp)
      have h1' : t.hash.take p.length = p := by rw [h1, List.take_of_length_le (by omega)]
      rw [h1', List.take_append (l₁ := p ++ c.take (32 - p.length))]
      rw [List.take_append (l₁ := p) (i := 32), List.take_of_length_le (show p.length ≤ 32 by omega)]
      rw [List.take_of_length_le (show (p ++ c.take (32 - p.length)).length ≤ (p ++ c).length by simp)]
      by_cases hc : c.length ≤ 32 - p.length
      · rw [List.take_of_length_le hc]; simp
      · rw [List.drop_of_length_le (by simp [hh]; omega)]; simp
  · by_cases h32 : 32 ≤ p.length
    · have e : ((p ++ c).drop 32).take 4 = (p.drop 32).take 4 ++ c.take (36 - p.length) := by
        rw [List.drop_append_of_le_length h32, List.take_append]
        congr 2; simp; omega
      rw [e]
      rw [show 32 - p.length = 0 by omega]
      simp only [List.take_zero, List.length_nil, Nat.add_zero, List.drop_zero]
      by_cases h36 : p.length ≤ 36
      · have l : ((p.drop 32).take 4).length = p.length - 32 := by simp; omega
        rw [← l]
        exact accLE_spec _ _ _ h2 (by rw [l]; simp; omega)
      · rw [show 36 - p.length = 0 by omega]; simpa [accLE] using h2
    · have e0 : (p.drop 32).take 4 = [] := by rw [List.drop_of_length_le (by omega)]; rfl
      rw [e0] at h2
      have e : ((p ++ c).drop 32).take 4 = (c.drop (32 - p.length)).take 4 := by
        rw [List.drop_append, List.drop_of_length_le (by omega), List.nil_append]
      rw [e]
      by_cases hc : c.length ≤ 32 - p.length
      · rw [List.drop_of_length_le hc]; simpa [accLE] using h2
      · rw [show 36 - (p.length + (c.take (32 - p.length)).length) = 4 by simp; omega]
        rw [show p.length + (c.take (32 - p.length)).length - 32 = ([] : Bytes).length by simp; omega]
        have := accLE_spec ((c.drop (32 - p.length)).take 4) [] t.outputIndex h2 (by simp <;> omega)
        simpa using this

end TxIn

/-- One or two calls of the sub-script's parser, as both `TxIn` and `TxOut` do. -/
def subScript2 (x : Script × Nat × PStream) : Script × Nat × PStream :=
  let (sc, n, s) := x
  let (sc, m, s) := if s.avail ∧ sc.status = .incomplete then sc.fromStream s else (sc, 0, s)
  (sc, n + m, s)

def subScript (sc : Script) (start : Prop) [Decidable start] (s : PStream) : Script × Nat × PStream :=
  subScript2 (if s.avail ∧ start then sc.fromStream s else (sc, 0, s))

/-- What `subScript` leaves: `q` are the bytes from the start of the script on. -/
inductive SubScript (sc' : Script) (n : Nat) (s' : PStream) (q r0 c2 : Bytes) : Prop where
  | bad (h1 : sc'.status.Stopped) (h2 : readVar q = .bad) (h3 : sc'.status = .ub ↔ ∃ r, q = 0xff :: r) (h4 : ∃ r, s' = .of r ∧ r <:+ c2)
  | more (h1 : sc'.At q []) (h2 : n = c2.length) (h3 : s' = .of []) (h4 : r0 = []) (h5 : readVar q = .more)
  | ok (d rest : Bytes) (h1 : readVar q = .ok d (r0 ++ rest)) (h2 : sc'.status = .done) (h3 : sc'.Holds d) (h4 : s' = .of rest)
      (h5 : n + rest.length = c2.length)

theorem subScript_of_outcome (sc : Script) (s : PStream) (p c : Bytes)
    (h : Script.Outcome (sc.fromStream s).1 (sc.fromStream s).2.1 (sc.fromStream s).2.2 p c) :
    SubScript (sc.fromStream s).1 (sc.fromStream s).2.1 (sc.fromStream s).2.2 (p ++ c) [] c := by
  unfold Script.Outcome at h
  cases e : readVar (p ++ c) with
  | more => rw [e] at h; exact .more (Or.inr (Or.inl ⟨e, rfl, h.1⟩)) h.2.1 h.2.2 rfl e
  | bad => rw [e] at h; exact .bad h.1 e h.2.1 h.2.2
  | ok d r => rw [e] at h; exact .ok d r (by simpa using e) h.1 h.2.1 h.2.2.2.2 h.2.2.2.1

/-- Parsing a sub-script which starts at position `off` of its parent. -/
theorem subScript_spec (sc : Script) (off : Nat) (p c r0 : Bytes) (h : sc.At (p.drop off) r0) (hoff : off < p.length → p.drop off ≠ [])
    (start : Prop) [Decidable start] (hstart : start ↔ p.length + min c.length (off - p.length) = off) :
    SubScript (subScript sc start (.of (c.drop (off - p.length)))).1 (subScript sc start (.of (c.drop (off - p.length)))).2.1
      (subScript sc start (.of (c.drop (off - p.length)))).2.2 ((p ++ c).drop off) r0 (c.drop (off - p.length)) := by
  have hq : (p ++ c).drop off = p.drop off ++ c.drop (off - p.length) := List.drop_append
  rw [hq]
  generalize hc2 : c.drop (off - p.length) = c2 at *
  have second : ∀ (x : Script × Nat × PStream), SubScript x.1 x.2.1 x.2.2 (p.drop off ++ c2) r0 c2 → 
      (x.1.status = .incomplete → x.2.2 = .of []) →
      SubScript (subScript2 x).1 (subScript2 x).2.1 (subScript2 x).2.2 (p.drop off ++ c2) r0 c2 := by
    rintro ⟨a, n, s⟩ hx hy
    simp only at hx hy
    unfold subScript2
    simp only
    rw [if_neg]
    · exact hx
    · rintro ⟨h1, h2⟩
      rw [hy h2] at h1
      simp at h1
  unfold subScript
  by_cases hc : c2 = []
  · subst hc
    simp only [subScript2, PStream.avail_of, List.isEmpty_nil, Bool.not_true, Bool.false_eq_true, false_and, if_false, List.append_nil]
    rcases h with ⟨h1, h2, h3⟩ | ⟨h1, h2, h3⟩ | ⟨d, h1, h2, h3⟩
    · rw [h1]; exact .more (Or.inl ⟨rfl, rfl, h3⟩) rfl rfl h2 rfl
    · exact .more (Or.inr (Or.inl ⟨h1, rfl, h3⟩)) rfl rfl h2 h1
    · exact .ok d [] (by simpa using h1) h2 h3 rfl rfl
  · have hav : (PStream.of c2).avail = true := by
      cases c2 with
      | nil => exact absurd rfl hc
      | cons => simp
    have hlen : off - p.length < c.length := by
      by_contra hcon
      exact hc (by rw [← hc2, List.drop_of_length_le (by omega)])
    have incpl : ∀ (sc : Script) (q : Bytes), Script.Outcome (sc.fromStream (.of c2)).1 (sc.fromStream (.of c2)).2.1 (sc.fromStream (.of c2)).2.2 q c2 →
        (sc.fromStream (.of c2)).1.status = .incomplete → (sc.fromStream (.of c2)).2.2 = .of [] := by
      intro sc q ho hs
      unfold Script.Outcome at ho
      cases e : readVar (q ++ c2) with
      | more => rw [e] at ho; exact ho.2.2
      | bad => rw [e] at ho; rw [hs] at ho; rcases ho.1 with ho | ho <;> cases ho
      | ok d r => rw [e] at ho; rw [hs] at ho; cases ho.1
    by_cases hp : p.length ≤ off
    · -- the script starts here
      have hst : start := hstart.mpr (by omega)
      have hd : p.drop off = [] := List.drop_of_length_le hp
      rw [hd] at h ⊢
      have hr : sc.Ready ∧ r0 = [] := by
        rcases h with ⟨_, h2, h3⟩ | ⟨_, h2, h3⟩ | ⟨d, h1, _⟩
        · exact ⟨h3, h2⟩
        · obtain ⟨b, r, e, _⟩ := h3.shape; cases e
        · cases h1
      rw [hr.2]
      have ho := Script.feed sc [] c2 (Or.inl ⟨hr.1, rfl, hc⟩)
      have := second (sc.fromStream (.of c2)) (by rw [hd, hr.2]; exact subScript_of_outcome sc _ [] c2 ho) (incpl sc [] ho)
      rw [hd, hr.2] at this
      rw [if_pos ⟨hav, hst⟩]
      exact this
    · have hst : ¬ start := fun hs => by have := hstart.mp hs; omega
      rw [if_neg (by simp [hst])]
      unfold subScript2
      simp only [Nat.zero_add]
      rcases h with ⟨h1, _⟩ | ⟨h1, h2, h3⟩ | ⟨d, h1, h2, h3⟩
      · exact absurd h1 (hoff (by omega))
      · rw [if_pos ⟨hav, h3.status⟩, h2]
        exact subScript_of_outcome sc _ _ c2 (Script.feed sc _ c2 (Or.inr h3))
      · rw [if_neg (by simp [h2])]
        exact .ok d c2 (readVar_mono c2 h1) h2 h3 rfl (by simp)

theorem readVar_nil : readVar [] = .more := rfl

theorem Script.length_ge (sc : Script) : 1 ≤ sc.length := by
  unfold length lenVarIntN
  have : 1 ≤ lenVarInt (UInt64.ofNat sc.scriptLen) := by unfold lenVarInt; split_ifs <;> omega
  omega

theorem Script.At.notStopped {sc : Script} {q r : Bytes} (h : sc.At q r) : ¬ sc.status.Stopped := by
  rcases h with ⟨_, _, h⟩ | ⟨_, _, h⟩ | ⟨_, _, h, _⟩
  · rw [h.1]; rintro (h | h) <;> cases h
  · rw [h.status]; rintro (h | h) <;> cases h
  · rw [h]; rintro (h | h) <;> cases h

namespace TxIn

theorem readScript_eq (t : TxIn) (br : Nat) (s : PStream) : t.readScript br s =
    ({ t with scriptSig := (subScript t.scriptSig (br + t.bytesParsed = 36) s).1 },
      br + (subScript t.scriptSig (br + t.bytesParsed = 36) s).2.1, (subScript t.scriptSig (br + t.bytesParsed = 36) s).2.2) := by
  unfold readScript subScript subScript2
  simp only [Nat.add_assoc]

/-- An input not being parsed. -/
def Ready (t : TxIn) : Prop := t.status = .done ∧ t.hash.length = 32 ∧ t.scriptSig.arr.length = t.scriptSig.scriptLen

theorem assign_empty_ready (sc : Script) (h : sc.arr.length = sc.scriptLen) : (sc.assign {}).Ready := by
  unfold Script.assign Script.Ready Script.clear
  simp only
  split_ifs <;> simp_all

theorem start_ready (t : TxIn) (h : t.Ready) : t.start.Mid [] := by
  obtain ⟨h1, h2, h3⟩ := h
  unfold start
  simp only [h1, if_true]
  exact ⟨rfl, rfl, h2, rfl, rfl, [], Or.inl ⟨rfl, rfl, assign_empty_ready _ h3⟩, by simp, rfl⟩

theorem start_mid (t : TxIn) (p : Bytes) (h : t.Mid p) : t.start = t := by
  unfold start
  have := h.status
  cases t; simp_all

theorem fromStream_eq (t : TxIn) (s : PStream) (h : ¬ t.status.Stopped) :
    t.fromStream s = ((t.start.readHead s).1.readScript (t.start.readHead s).2.1 (t.start.readHead s).2.2).1.readTail
      ((t.start.readHead s).1.readScript (t.start.readHead s).2.1 (t.start.readHead s).2.2).2.1
      ((t.start.readHead s).1.readScript (t.start.readHead s).2.1 (t.start.readHead s).2.2).2.2 := by
  unfold fromStream
  rw [if_neg (show ¬ (t.status = .failed ∨ t.status = .ub) from h)]

/-- Feeding the next bytes to an input parser. -/
theorem feed_mid_w (t : TxIn) (p c : Bytes) (hm : t.Mid p) :
    FedW (WideAt 36) readIn (t.fromStream (.of c)).1.Mid (t.fromStream (.of c)).1.HoldsBody (t.fromStream (.of c)).1.status
      (t.fromStream (.of c)).2.1 (t.fromStream (.of c)).2.2 p c := by
  rw [fromStream_eq _ _ (by rw [hm.status]; rintro (h | h) <;> cases h), start_mid t p hm]
  obtain ⟨hst, hpar, hhl, hh, hix, r0, hsc, hr0, hseq⟩ := hm
  obtain ⟨hash', ix', e1, g1, g2, g3⟩ := readHead_spec t p c hpar hhl hh hix
  rw [e1]
  simp only
  rw [readScript_eq]
  simp only
  have hpos : ∀ x, min c.length (36 - p.length) + t.bytesParsed = x ↔ p.length + min c.length (36 - p.length) = x := by
    intro x; rw [hpar]; omega
  have hsub := subScript_spec t.scriptSig 36 p c r0 hsc (fun h => by
    intro e; have := congrArg List.length e; simp at this; omega) (min c.length (36 - p.length) + t.bytesParsed = 36) (hpos 36)
  generalize hss : subScript t.scriptSig (min c.length (36 - p.length) + t.bytesParsed = 36) (.of (c.drop (36 - p.length))) = ss at hsub ⊢
  obtain ⟨sc', n, s'⟩ := ss
  simp only at hsub ⊢
  have hlen2 : min c.length (36 - p.length) + (c.drop (36 - p.length)).length = c.length := by simp; omega
  have hq36 : 36 < (p ++ c).length ∨ (p ++ c).drop 36 = [] := by
    by_cases h : 36 < (p ++ c).length
    · exact Or.inl h
    · exact Or.inr (List.drop_of_length_le (by omega))
  unfold FedW
  cases hsub with
  | bad h1 h2 h3 h4 =>
    have h36 : ¬ (p ++ c).length < 36 := by
      rcases hq36 with h | h
      · omega
      · rw [h, readVar_nil] at h2; cases h2
    have : readIn (p ++ c) = .bad := by unfold readIn; rw [if_neg h36, h2]
    rw [this]
    simp only
    unfold readTail
    simp only
    have htail : ∃ r, s' = .of r ∧ r <:+ c := by
      obtain ⟨r, e, hr⟩ := h4
      exact ⟨r, e, hr.trans (List.drop_suffix _ _)⟩
    rcases h1 with h1 | h1
    · rw [if_pos h1]; exact ⟨Or.inl rfl, by rw [h1] at h3; simpa [WideAt] using h3, htail⟩
    · rw [if_neg (by rw [h1]; simp), if_pos h1]; exact ⟨Or.inr rfl, by rw [h1] at h3; simpa [WideAt] using h3, htail⟩
  | more h1 h2 h3 h4 h5 =>
    have hmore : readIn (p ++ c) = .more := by
      unfold readIn; rw [h5]; split_ifs <;> rfl
    rw [hmore, h3]
    have hns := h1.notStopped
    unfold readTail
    simp only
    rw [if_neg (fun h => hns (Or.inl h)), if_neg (fun h => hns (Or.inr h))]
    simp only [PStream.readN_of, List.take_nil, List.drop_nil]
    rw [if_neg (by simp)]
    simp only [accLE, List.length_nil, Nat.add_zero]
    have hret : min c.length (36 - p.length) + n = c.length := by rw [h2]; exact hlen2
    rw [hret]
    have hnd : ¬ (sc'.status = .done ∧ c.length + t.bytesParsed = 36 + sc'.length + 4) := by
      rintro ⟨a1, a2⟩
      rcases h1 with ⟨b1, _, b3⟩ | ⟨_, _, b3⟩ | ⟨d, b1, _⟩
      · have := congrArg List.length b1
        have := sc'.length_ge
        simp at this b1
        omega
      · rw [b3.status] at a1; cases a1
      · rw [h5] at b1; cases b1
    rw [if_neg hnd]
    refine ⟨hst, ⟨hst, ?_, g1, g2, g3, [], h1, by simp, ?_⟩, rfl, trivial⟩
    · simp only [hpar, List.length_append]
    · simp only [hseq, h4]
  | ok d rest h1 h2 h3 h4 h5 =>
    have hval := codecVar.sound _ _ _ h1
    have hl := sc'.length_eq d h3 (by omega)
    have hql := readVar_ok_length h1
    have h36 : ¬ (p ++ c).length < 36 := by
      rcases hq36 with h | h
      · omega
      · rw [h, readVar_nil] at h1; cases h1
    simp only [List.length_drop, List.length_append] at hql h36
    unfold readTail
    simp only
    rw [if_neg (by rw [h2]; simp), if_neg (by rw [h2]; simp), h4]
    simp only [PStream.readN_of]
    simp only [List.length_drop] at h5
    have hp1 : min c.length (36 - p.length) + n + t.bytesParsed = 36 + sc'.length + r0.length := by
      rw [hl, hpar]; omega
    rw [hp1]
    have eq1 : 36 + sc'.length + 4 - (36 + sc'.length + r0.length) = 4 - r0.length := by omega
    have eq2 : 36 + sc'.length + r0.length - (36 + sc'.length) = r0.length := by omega
    rw [eq1, eq2, if_neg (by omega)]
    simp only [h2, true_and]
    have hsq : (accLE t.sequence r0.length (rest.take (4 - r0.length))).toNat = leValue (r0 ++ rest.take (4 - r0.length)) :=
      accLE_spec _ _ _ hseq (by simp; omega)
    have htk : (r0 ++ rest).take 4 = r0 ++ rest.take (4 - r0.length) := by
      rw [List.take_append, List.take_of_length_le (by omega)]
    have hdk : (r0 ++ rest).drop 4 = rest.drop (4 - r0.length) := by
      rw [List.drop_append, List.drop_of_length_le (by omega), List.nil_append]
    by_cases hr : (r0 ++ rest).length < 4
    · have hrd : readIn (p ++ c) = .more := by
        unfold readIn; rw [h1, if_neg (by simp; omega)]; simp only; rw [if_pos hr]
      rw [hrd]
      simp only [List.length_append] at hr
      have et : rest.take (4 - r0.length) = rest := List.take_of_length_le (by omega)
      have ed : rest.drop (4 - r0.length) = [] := List.drop_of_length_le (by omega)
      rw [et] at hsq
      simp only [et, ed]
      rw [if_neg (by omega)]
      refine ⟨hst, ⟨hst, ?_, g1, g2, g3, r0 ++ rest, Or.inr (Or.inr ⟨d, h1, h2, h3⟩), by simp; omega, hsq⟩, by omega, trivial⟩
      simp only [hpar, List.length_append]; omega
    · have hrd : readIn (p ++ c) = .ok ⟨(p ++ c).take 32, leValue (((p ++ c).drop 32).take 4), d, leValue ((r0 ++ rest).take 4), []⟩ ((r0 ++ rest).drop 4) := by
        unfold readIn; rw [h1, if_neg (by simp; omega)]; simp only; rw [if_neg hr]
      rw [hrd]
      simp only [List.length_append] at hr
      have hlt : (rest.take (4 - r0.length)).length = 4 - r0.length := by simp; omega
      simp only [hlt]
      rw [if_pos (by omega), hdk]
      refine ⟨rfl, ⟨?_, g1, g3, h3, by simp only [htk]; exact hsq⟩, by simp; omega, rfl⟩
      simp only
      rw [← g2, List.take_of_length_le (by simp; omega)]

theorem feed_w (t : TxIn) (p c : Bytes) (h : (t.Ready ∧ p = []) ∨ t.Mid p) :
    FedW (WideAt 36) readIn (t.fromStream (.of c)).1.Mid (t.fromStream (.of c)).1.HoldsBody (t.fromStream (.of c)).1.status
      (t.fromStream (.of c)).2.1 (t.fromStream (.of c)).2.2 p c := by
  rcases h with ⟨h, rfl⟩ | h
  · have hm := start_ready t h
    have e : t.fromStream (.of c) = t.start.fromStream (.of c) := by
      rw [fromStream_eq _ _ (by rw [h.1]; rintro (h | h) <;> cases h),
        fromStream_eq t.start _ (by rw [hm.status]; rintro (h | h) <;> cases h), start_mid _ _ hm]
    rw [e]
    exact feed_mid_w _ _ _ hm
  · exact feed_mid_w _ _ _ h

theorem bad_wide (q : Bytes) (h : readIn q = .bad) (hw : WideAt 36 q) : Wide q := by
  refine hw.wide ?_
  unfold readIn at h
  split_ifs at h with h1
  cases e : readVar (q.drop 36) with
  | more => rw [e] at h; cases h
  | bad => rfl
  | ok d r => rw [e] at h; simp only at h; split_ifs at h

theorem feed (t : TxIn) (p c : Bytes) (h : (t.Ready ∧ p = []) ∨ t.Mid p) :
    Fed readIn (t.fromStream (.of c)).1.Mid (t.fromStream (.of c)).1.HoldsBody (t.fromStream (.of c)).1.status
      (t.fromStream (.of c)).2.1 (t.fromStream (.of c)).2.2 p c := (feed_w t p c h).fed bad_wide

theorem readTail_witness (t : TxIn) (br : Nat) (s : PStream) : (t.readTail br s).1.witness = t.witness := by
  unfold readTail
  split
  · rfl
  split
  · rfl
  simp only
  split <;> rfl

theorem start_witness (t : TxIn) : t.start.witness = t.witness := by
  unfold start; simp only; split <;> rfl

theorem fromStream_witness (t : TxIn) (s : PStream) : (t.fromStream s).1.witness = t.witness := by
  by_cases h : t.status.Stopped
  · unfold fromStream; rw [if_pos (show t.status = .failed ∨ t.status = .ub from h)]
  · rw [fromStream_eq t s h, readTail_witness, ← start_witness t]; rfl

end TxIn

namespace TxOut

structure Mid (t : TxOut) (p : Bytes) : Prop where
  status : t.status = .incomplete
  parsed : t.bytesParsed = p.length
  tmp : t.tmp = p.take 8 ++ zeros (8 - p.length)
  amount : t.amount.toNat = leValue (p.take 8)
  script : t.scriptPubkey.At (p.drop 8) []

def Ready (t : TxOut) : Prop := t.status = .done ∧ t.scriptPubkey.arr.length = t.scriptPubkey.scriptLen

theorem readHead_spec (t : TxOut) (p c : Bytes) (hp : t.bytesParsed = p.length) (h1 : t.tmp = p.take 8 ++ zeros (8 - p.length))
    (h2 : t.amount.toNat = leValue (p.take 8)) :
    ∃ tmp' a', t.readHead (.of c) = ({ t with tmp := tmp', amount := a' }, min c.length (8 - p.length), .of (c.drop (8 - p.length))) ∧
      tmp' = (p ++ c).take 8 ++ zeros (8 - (p ++ c).length) ∧ a'.toNat = leValue ((p ++ c).take 8) := by
  unfold readHead
  simp only [PStream.readN_of, hp]
  have key : c.take (8 - p.length) ≠ [] → t.tmp.take p.length ++ c.take (8 - p.length) ++
      t.tmp.drop (p.length + (c.take (8 - p.length)).length) = (p ++ c).take 8 ++ zeros (8 - (p ++ c).length) := by
    intro h0
    have h8 : p.length < 8 := by
      by_contra hcon
      exact h0 (by rw [show 8 - p.length = 0 by omega]; simp)
    have ep : p.take 8 = p := List.take_of_length_le (by omega)
    rw [ep] at h1
    rw [h1, List.take_left', List.take_append, ep]
    · congr 1
      rw [← List.drop_drop, List.drop_left, drop_zeros]
      congr 1; simp; omega
    · rfl
  refine ⟨_, _, Prod.ext rfl (Prod.ext ?_ rfl), ?_, ?_⟩
  · simp only [List.length_take]; omega
  · split_ifs with h0
    · rcases List.take_eq_nil_iff.mp h0 with h | h
      · rw [h1, List.take_append_of_le_length (by omega), show 8 - p.length = 0 by omega, show 8 - (p ++ c).length = 0 by simp; omega]
      · subst h; simpa using h1
    · exact key h0
  · split_ifs with h0
    · rcases List.take_eq_nil_iff.mp h0 with h | h
      · rw [List.take_append_of_le_length (by omega)]; exact h2
      · subst h; simpa using h2
    · rw [key h0, littleEndianToInt_eq, leValue_append_zeros]
      apply Nat.mod_eq_of_lt
      have h1 := leValue_lt ((p ++ c).take 8)
      have h2 : (256 : Nat) ^ ((p ++ c).take 8).length ≤ 256 ^ 8 := Nat.pow_le_pow_right (by omega) (by simp <;> omega)
      omega

theorem readScript_eq (t : TxOut) (br : Nat) (s : PStream) : t.readScript br s =
    ({ t with scriptPubkey := (subScript t.scriptPubkey (br + t.bytesParsed = 8) s).1 },
      br + (subScript t.scriptPubkey (br + t.bytesParsed = 8) s).2.1, (subScript t.scriptPubkey (br + t.bytesParsed = 8) s).2.2) := by
  unfold readScript subScript subScript2
  simp only [Nat.add_assoc]

theorem start_ready (t : TxOut) (h : t.Ready) : t.start.Mid [] := by
  obtain ⟨h1, h2⟩ := h
  unfold start
  simp only [h1, if_true]
  refine ⟨rfl, rfl, rfl, rfl, Or.inl ⟨rfl, rfl, rfl, ?_⟩⟩
  have := Script.clear_len t.scriptPubkey h2
  exact this

theorem start_mid (t : TxOut) (p : Bytes) (h : t.Mid p) : t.start = t := by
  unfold start
  have := h.status
  cases t; simp_all

theorem fromStream_eq (t : TxOut) (s : PStream) (h : ¬ t.status.Stopped) :
    t.fromStream s = ((t.start.readHead s).1.readScript (t.start.readHead s).2.1 (t.start.readHead s).2.2).1.readTail
      ((t.start.readHead s).1.readScript (t.start.readHead s).2.1 (t.start.readHead s).2.2).2.1
      ((t.start.readHead s).1.readScript (t.start.readHead s).2.1 (t.start.readHead s).2.2).2.2 := by
  unfold fromStream
  rw [if_neg (show ¬ (t.status = .failed ∨ t.status = .ub) from h)]

/-- Feeding the next bytes to an output parser. -/
theorem feed_mid_w (t : TxOut) (p c : Bytes) (hm : t.Mid p) :
    FedW (WideAt 8) readOut (t.fromStream (.of c)).1.Mid (t.fromStream (.of c)).1.Holds (t.fromStream (.of c)).1.status
      (t.fromStream (.of c)).2.1 (t.fromStream (.of c)).2.2 p c := by
  rw [fromStream_eq _ _ (by rw [hm.status]; rintro (h | h) <;> cases h), start_mid t p hm]
  obtain ⟨hst, hpar, ht, ha, hsc⟩ := hm
  obtain ⟨tmp', a', e1, g1, g2⟩ := readHead_spec t p c hpar ht ha
  rw [e1]
  simp only
  rw [readScript_eq]
  simp only
  have hpos : ∀ x, min c.length (8 - p.length) + t.bytesParsed = x ↔ p.length + min c.length (8 - p.length) = x := by
    intro x; rw [hpar]; omega
  have hsub := subScript_spec t.scriptPubkey 8 p c [] hsc (fun h => by
    intro e; have := congrArg List.length e; simp at this; omega) (min c.length (8 - p.length) + t.bytesParsed = 8) (hpos 8)
  generalize hss : subScript t.scriptPubkey (min c.length (8 - p.length) + t.bytesParsed = 8) (.of (c.drop (8 - p.length))) = ss at hsub ⊢
  obtain ⟨sc', n, s'⟩ := ss
  simp only at hsub ⊢
  have hlen2 : min c.length (8 - p.length) + (c.drop (8 - p.length)).length = c.length := by simp; omega
  have hq36 : 8 < (p ++ c).length ∨ (p ++ c).drop 8 = [] := by
    by_cases h : 8 < (p ++ c).length
    · exact Or.inl h
    · exact Or.inr (List.drop_of_length_le (by omega))
  unfold FedW
  cases hsub with
  | bad h1 h2 h3 h4 =>
    have h36 : ¬ (p ++ c).length < 8 := by
      rcases hq36 with h | h
      · omega
      · rw [h, readVar_nil] at h2; cases h2
    have : readOut (p ++ c) = .bad := by unfold readOut; rw [if_neg h36, h2]
    rw [this]
    simp only
    unfold readTail
    simp only
    have htail : ∃ r, s' = .of r ∧ r <:+ c := by
      obtain ⟨r, e, hr⟩ := h4
      exact ⟨r, e, hr.trans (List.drop_suffix _ _)⟩
    rcases h1 with h1 | h1
    · rw [if_pos h1]; exact ⟨Or.inl rfl, by rw [h1] at h3; simpa [WideAt] using h3, htail⟩
    · rw [if_neg (by rw [h1]; simp), if_pos h1]; exact ⟨Or.inr rfl, by rw [h1] at h3; simpa [WideAt] using h3, htail⟩
  | more h1 h2 h3 h4 h5 =>
    have hmore : readOut (p ++ c) = .more := by
      unfold readOut; rw [h5]; split_ifs <;> rfl
    rw [hmore, h3]
    have hns := h1.notStopped
    unfold readTail
    simp only
    rw [if_neg (fun h => hns (Or.inl h)), if_neg (fun h => hns (Or.inr h))]
    have hret : min c.length (8 - p.length) + n = c.length := by rw [h2]; exact hlen2
    rw [hret]
    have hnd : ¬ (sc'.status = .done ∧ c.length + t.bytesParsed = 8 + sc'.length) := by
      rintro ⟨a1, a2⟩
      rcases h1 with ⟨b1, _, b3⟩ | ⟨_, _, b3⟩ | ⟨d, b1, _⟩
      · have := congrArg List.length b1
        have := sc'.length_ge
        simp at this b1
        omega
      · rw [b3.status] at a1; cases a1
      · rw [h5] at b1; cases b1
    rw [if_neg hnd]
    refine ⟨hst, ⟨hst, ?_, g1, g2, h1⟩, rfl, rfl⟩
    simp only [hpar, List.length_append]
  | ok d rest h1 h2 h3 h4 h5 =>
    have hval := codecVar.sound _ _ _ h1
    have hl := sc'.length_eq d h3 (by omega)
    have hql := readVar_ok_length h1
    have h36 : ¬ (p ++ c).length < 8 := by
      rcases hq36 with h | h
      · omega
      · rw [h, readVar_nil] at h1; cases h1
    simp only [List.length_drop, List.length_append, List.nil_append] at hql h36
    unfold readTail
    simp only
    rw [if_neg (by rw [h2]; simp), if_neg (by rw [h2]; simp), h4]
    simp only [List.length_drop] at h5
    rw [if_pos ⟨h2, by rw [hl, hpar]; omega⟩]
    have hrd : readOut (p ++ c) = .ok ⟨leValue ((p ++ c).take 8), d⟩ rest := by
      unfold readOut; rw [h1, if_neg (by simp; omega)]; rfl
    rw [hrd]
    refine ⟨rfl, ⟨g2, h3⟩, ?_, rfl⟩
    show min c.length (8 - p.length) + n + rest.length = c.length
    omega

theorem feed_w (t : TxOut) (p c : Bytes) (h : (t.Ready ∧ p = []) ∨ t.Mid p) :
    FedW (WideAt 8) readOut (t.fromStream (.of c)).1.Mid (t.fromStream (.of c)).1.Holds (t.fromStream (.of c)).1.status
      (t.fromStream (.of c)).2.1 (t.fromStream (.of c)).2.2 p c := by
  rcases h with ⟨h, rfl⟩ | h
  · have hm := start_ready t h
    have e : t.fromStream (.of c) = t.start.fromStream (.of c) := by
      rw [fromStream_eq _ _ (by rw [h.1]; rintro (h | h) <;> cases h),
        fromStream_eq t.start _ (by rw [hm.status]; rintro (h | h) <;> cases h), start_mid _ _ hm]
    rw [e]
    exact feed_mid_w _ _ _ hm
  · exact feed_mid_w _ _ _ h

theorem bad_wide (q : Bytes) (h : readOut q = .bad) (hw : WideAt 8 q) : Wide q := by
  refine hw.wide ?_
  unfold readOut at h
  split_ifs at h with h1
  cases e : readVar (q.drop 8) with
  | more => rw [e] at h; cases h
  | bad => rfl
  | ok d r => rw [e] at h; simp only at h; cases h

theorem feed (t : TxOut) (p c : Bytes) (h : (t.Ready ∧ p = []) ∨ t.Mid p) :
    Fed readOut (t.fromStream (.of c)).1.Mid (t.fromStream (.of c)).1.Holds (t.fromStream (.of c)).1.status
      (t.fromStream (.of c)).2.1 (t.fromStream (.of c)).2.2 p c := (feed_w t p c h).fed bad_wide

end TxOut

end UB
