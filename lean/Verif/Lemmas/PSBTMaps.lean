import Verif.Lemmas.PSBTParse

/-
PSBT::from_stream on all bytes at once.
-/

namespace UB
open Spec

/-- How far the data of a length-prefixed string is missed when the size of the prefix is computed from the total length. -/
def Spec.misread (n : Nat) : Nat := if n = 252 ∨ (65533 ≤ n ∧ n ≤ 65535) then 2 else 0

theorem dataPos_eq (d : Bytes) (h : d.length < 2 ^ 31) : dataPos (varBytes d) = (compactSize d.length).length + misread d.length := by
  unfold dataPos varBytes
  rw [List.length_append, lenVarIntN_eq _ (by have := compactSize_length d.length; omega)]
  unfold misread compactSize
  split_ifs <;> simp_all <;> omega

theorem drop_dataPos (d : Bytes) (h : d.length < 2 ^ 31) : (varBytes d).drop (dataPos (varBytes d)) = d.drop (misread d.length) := by
  rw [dataPos_eq d h, ← List.drop_drop]
  unfold varBytes
  rw [List.drop_left]

theorem peek_dataPos (k : Bytes) (h : k.length < 2 ^ 31) : peek (varBytes k) (dataPos (varBytes k)) = peek k (misread k.length) := by
  unfold peek
  rw [dataPos_eq k h]
  unfold varBytes
  rw [List.getElem?_append_right (by omega)]
  congr 1
  congr 1
  omega

/-- A length prefix that is refused: a longer one than needed, or a length of 2^31 or more. -/
def Spec.BadLen (p : Bytes) : Prop := ∃ b r, p = b :: r ∧
  (b = 0xfd ∧ r.length = 2 ∧ leValue r < 0xfd ∨ b = 0xfe ∧ r.length = 4 ∧ (leValue r < 0x10000 ∨ 2 ^ 31 ≤ leValue r))

theorem readVar_badLen (p q : Bytes) (h : BadLen p) : readVar (p ++ q) = .bad := by
  obtain ⟨b, r, rfl, h⟩ := h
  rw [List.cons_append]
  have e1 : extraBytes 0xfd = 2 := by decide
  have e2 : extraBytes 0xfe = 4 := by decide
  rcases h with ⟨rfl, h1, h2⟩ | ⟨rfl, h1, h2⟩
  · simp only [readVar]
    rw [if_neg (by decide), if_neg (by rw [e1, List.length_append]; omega), Script.prefixValue_append _ _ _ (by rw [e1, h1]),
      Script.prefixValue_pos _ _ (by decide), e1, List.take_of_length_le (by omega), if_pos]
    left
    rw [compactSize_small h2]
    simp
  · simp only [readVar]
    rw [if_neg (by decide), if_neg (by rw [e2, List.length_append]; omega), Script.prefixValue_append _ _ _ (by rw [e2, h1]),
      Script.prefixValue_pos _ _ (by decide), e2, List.take_of_length_le (by omega), if_pos]
    rcases h2 with h2 | h2
    · left
      unfold compactSize
      split_ifs <;> simp [leBytes]
    · exact Or.inr h2

/-- A refused length prefix, and what remains of the stream. -/
theorem Script.bad_rest (sc : Script) (hr : sc.Ready) (c : Bytes) (h : readVar c = .bad) (hn : ¬ ∃ r, c = 0xff :: r) :
    ∃ p r, BadLen p ∧ c = p ++ r ∧ (sc.fromStream (.of c)).2.2 = .of r := by
  obtain ⟨g1, g2, g3⟩ := sc.start_ready hr
  cases c with
  | nil => cases h
  | cons b r =>
    have hb : b ≠ 0xff := fun e => hn ⟨r, by rw [e]⟩
    simp only [readVar, if_neg hb] at h
    by_cases h1 : r.length < extraBytes b
    · rw [if_pos h1] at h; cases h
    rw [if_neg h1] at h
    by_cases h2 : (compactSize (prefixValue b r)).length ≠ extraBytes b + 1 ∨ 2 ^ 31 ≤ prefixValue b r
    swap
    · rw [if_neg h2] at h
      split at h <;> cases h
    have hk : b = 0xfd ∨ b = 0xfe := by
      rcases byte_cases b with ⟨h3, h4⟩ | h | h | h
      · exfalso
        have h5 : extraBytes b = 0 := by unfold extraBytes; rw [if_pos h3]
        have hpv : prefixValue b r = b.toNat := by simp [prefixValue, h5]
        rw [hpv, h5, compactSize_small h4] at h2
        simp at h2
        omega
      · exact Or.inl h
      · exact Or.inr h
      · exact absurd h hb
    have hk0 : extraBytes b ≠ 0 := by rcases hk with rfl | rfl <;> decide
    have hk4 := Script.extraBytes_le b hb
    have hr1l : (r.take (extraBytes b)).length = extraBytes b := by rw [List.length_take]; omega
    have hpv : prefixValue b r = leValue (r.take (extraBytes b)) := Script.prefixValue_pos _ _ hk0
    rw [hpv] at h2
    refine ⟨b :: r.take (extraBytes b), r.drop (extraBytes b), ⟨b, _, rfl, ?_⟩, by rw [List.cons_append, List.take_append_drop], ?_⟩
    · have hlt := leValue_lt (r.take (extraBytes b))
      rw [hr1l] at hlt
      rcases hk with rfl | rfl
      · left
        have e1 : extraBytes 0xfd = 2 := by decide
        rw [e1] at hlt h2 hr1l ⊢
        refine ⟨rfl, hr1l, ?_⟩
        by_contra hc
        rcases h2 with h2 | h2
        · apply h2
          unfold compactSize
          rw [if_neg hc, if_pos (by omega)]
          simp [leBytes]
        · omega
      · right
        have e1 : extraBytes 0xfe = 4 := by decide
        rw [e1] at hlt h2 hr1l ⊢
        refine ⟨rfl, hr1l, ?_⟩
        by_contra hc
        rcases h2 with h2 | h2
        · apply h2
          unfold compactSize
          rw [if_neg (by omega), if_neg (by omega), if_pos (by omega)]
          simp [leBytes]
        · exact hc (Or.inr h2)
    · rw [Script.fromStream_eq _ _ (by rw [hr.1]; simp)]
      have hpre : sc.start.readPrefix (.of (b :: r)) = ({ sc.start with scriptLen := 0, lenLen := extraBytes b + 1, arr := zeros 255 }, 1, .of r) := by
        unfold Script.readPrefix
        rw [if_pos ⟨by simp, g2⟩]
        show (if b < 0xfd then _ else _) = _
        rw [if_neg (by rcases hk with rfl | rfl <;> decide)]
        rcases hk with rfl | rfl <;> rfl
      rw [hpre]
      dsimp only
      have hloop := (lenLoop_spec (extraBytes b) (extraBytes b) [] r (by simp) (by simp [tooLong])).1
        (by rw [List.nil_append]; rintro (h | ⟨h, -⟩) <;> omega)
      rw [List.nil_append, show accLen [] = 0 by decide, List.length_nil, Nat.add_zero] at hloop
      rw [Script.rest_some _ _ _ _ _ _ (by dsimp only; rw [g2, Nat.zero_add, Nat.add_sub_cancel]; exact hloop)]
      unfold Script.alloc
      dsimp only
      have hmin : min (extraBytes b) r.length = extraBytes b := by omega
      have hvlt : leValue (r.take (extraBytes b)) < 2 ^ 32 := by
        have h1 := leValue_lt (r.take (extraBytes b))
        have h2 : (256 : Nat) ^ (r.take (extraBytes b)).length ≤ 256 ^ 4 := Nat.pow_le_pow_right (by omega) (by omega)
        omega
      have hs1 : sc.start.bytesParsed + (1 + min (extraBytes b) r.length - sc.start.bytesParsed) = extraBytes b + 1 := by rw [g2]; omega
      by_cases hbig : 2 ^ 31 ≤ leValue (r.take (extraBytes b))
      · have h6 : (r.take (extraBytes b)).length = 4 := by
          by_contra hne
          have h1 := leValue_lt (r.take (extraBytes b))
          have h2 : (256 : Nat) ^ (r.take (extraBytes b)).length ≤ 256 ^ 3 := Nat.pow_le_pow_right (by omega) (by omega)
          omega
        rw [if_pos]
        simp only [hs1, accLen, h6, hbig, and_self, if_true, true_and]
        omega
      · have hacc : accLen (r.take (extraBytes b)) = leValue (r.take (extraBytes b)) := by unfold accLen; rw [if_neg (by omega)]
        have hcan : (compactSize (leValue (r.take (extraBytes b)))).length ≠ extraBytes b + 1 := by
          rcases h2 with h2 | h2
          · exact h2
          · exact absurd h2 hbig
        have hv : lenVarIntN (leValue (r.take (extraBytes b))) ≠ extraBytes b + 1 := by rw [lenVarIntN_eq _ (by omega)]; exact hcan
        rw [if_neg (by rw [hacc]; omega), if_pos]
        split_ifs <;> simp only [hs1, hacc] <;> exact ⟨trivial, hv⟩

/-- Bytes behind the first five on which the first pair of a PSBT is undefined: the key or the value starts with an eight-byte length,
or parsing the value into the transaction object `t` is undefined.  The value is read even if the length of the key has been refused. -/
def Spec.FirstUb (t : Tx) (c : Bytes) : Prop :=
  HugeLen c ∨ (∃ k r, k.length < 2 ^ 31 ∧ c = varBytes k ++ r ∧ HugeLen r) ∨ (∃ p r, BadLen p ∧ c = p ++ r ∧ HugeLen r) ∨
  ∃ v r, v.length < 2 ^ 31 ∧ c = pairBytes ([0], v) ++ r ∧ (t.fromStream (.of (v.drop (misread v.length)))).1.status = .ub

theorem firstUb_iff (t : Tx) (c : Bytes) : FirstUb t c ↔ (readVar c = .bad ∧ ∃ r, c = 0xff :: r) ∨ (∃ k r, readVar c = .ok k r ∧ HugeLen r) ∨
    (∃ p r, BadLen p ∧ c = p ++ r ∧ HugeLen r) ∨
    ∃ r v r', readVar c = .ok [0] r ∧ readVar r = .ok v r' ∧ (t.fromStream (.of (v.drop (misread v.length)))).1.status = .ub := by
  unfold FirstUb
  rw [hugeLen_iff c]
  refine or_congr Iff.rfl (or_congr ⟨?_, ?_⟩ (or_congr Iff.rfl ⟨?_, ?_⟩))
  · rintro ⟨k, r, h1, rfl, h2⟩
    exact ⟨k, r, readVar_varBytes k r h1, h2⟩
  · rintro ⟨k, r, h1, h2⟩
    have := readVar_sound _ _ _ h1
    exact ⟨k, r, this.2, this.1, h2⟩
  · rintro ⟨v, r, h1, rfl, h2⟩
    refine ⟨varBytes v ++ r, v, r, ?_, readVar_varBytes v r h1, h2⟩
    unfold pairBytes
    rw [List.append_assoc]
    exact readVar_varBytes [0] _ (by decide)
  · rintro ⟨r, v, r', h1, h2, h3⟩
    have s1 := readVar_sound _ _ _ h1
    have s2 := readVar_sound _ _ _ h2
    exact ⟨v, r', s2.2, by unfold pairBytes; rw [List.append_assoc, ← s2.1]; exact s1.1, h3⟩

/-- Bytes that do not start with a refused length. -/
theorem badLen_unique {p p' r r' : Bytes} (h : BadLen p) (h' : BadLen p') (e : p ++ r = p' ++ r') : r = r' := by
  obtain ⟨b, q, rfl, h⟩ := h
  obtain ⟨b', q', rfl, h'⟩ := h'
  rw [List.cons_append, List.cons_append, List.cons.injEq] at e
  obtain ⟨rfl, e⟩ := e
  refine (List.append_inj e ?_).2
  rcases h with ⟨rfl, h, -⟩ | ⟨rfl, h, -⟩
  · rcases h' with ⟨-, h', -⟩ | ⟨h', -⟩
    · omega
    · exact absurd h' (by decide)
  · rcases h' with ⟨h', -⟩ | ⟨-, h', -⟩
    · exact absurd h' (by decide)
    · omega

theorem not_badLen {c : Bytes} (h : readVar c ≠ .bad) {P : Bytes → Prop} : ¬ ∃ p r, BadLen p ∧ c = p ++ r ∧ P r := by
  rintro ⟨p, r, h1, rfl, -⟩
  exact h (readVar_badLen p r h1)

namespace PSBT

/-- Nothing has been parsed, or a parse ended DONE, and the object can be reused. -/
structure Clean (p : PSBT) : Prop where
  status : p.status = .done
  key : p.key.Ready
  keyEmpty : p.key.scriptLen = 0
  value : p.value.Ready
  released : p.release ≠ .ub

theorem clean_fresh : ({} : PSBT).Clean := ⟨rfl, ⟨rfl, rfl⟩, rfl, ⟨rfl, rfl⟩, by decide⟩

theorem readMagic_spec : ∀ (l : Bytes) (n : Nat) (bs : Bytes),
    (∃ c, bs = l ++ c ∧ readMagic l n (.of bs) = (true, n + l.length, .of c)) ∨
    (bs.length < l.length ∧ bs <+: l ∧ readMagic l n (.of bs) = (true, n + bs.length, .of [])) ∨
    (¬ (l <+: bs) ∧ ¬ (bs <+: l) ∧ (readMagic l n (.of bs)).1 = false)
  | [], n, bs => Or.inl ⟨bs, rfl, rfl⟩
  | b :: l, n, [] => Or.inr (Or.inl ⟨by simp, List.nil_prefix, by simp [readMagic]⟩)
  | b :: l, n, a :: bs => by
    by_cases hab : a = b
    · subst hab
      have e : readMagic (a :: l) n (.of (a :: bs)) = readMagic l (n + 1) (.of bs) := by
        simp [readMagic, PStream.readByte, PStream.avail]
      rw [e]
      rcases readMagic_spec l (n + 1) bs with ⟨c, h1, h2⟩ | ⟨h1, h2, h3⟩ | ⟨h1, h2, h3⟩
      · refine Or.inl ⟨c, by rw [h1]; rfl, ?_⟩
        rw [h2, List.length_cons]
        congr 2; omega
      · refine Or.inr (Or.inl ⟨by simp; omega, by rw [List.cons_prefix_cons]; exact ⟨rfl, h2⟩, ?_⟩)
        rw [h3, List.length_cons]
        congr 2; omega
      · refine Or.inr (Or.inr ⟨?_, ?_, h3⟩)
        · rw [List.cons_prefix_cons]; exact fun h => h1 h.2
        · rw [List.cons_prefix_cons]; exact fun h => h2 h.2
    · refine Or.inr (Or.inr ⟨?_, ?_, ?_⟩)
      · rw [List.cons_prefix_cons]; exact fun h => hab h.1.symm
      · rw [List.cons_prefix_cons]; exact fun h => hab h.1
      · simp [readMagic, PStream.readByte, PStream.avail, hab]

/-- The transaction object a new parse starts with. -/
def txStart (p : PSBT) : Tx := { p.tx with status := .done, bytesParsed := 0 }

theorem start_eq {p : PSBT} (h : p.status = .done) :
    p.start = { p with ins := [], outs := [], tx := p.txStart, bytesParsed := 0, sec := 0, lastKeyPos := 5, status := .incomplete } := by
  unfold start
  rw [if_pos h]
  rfl

theorem loop_nothing (junk : Nat → Bytes) (fuel : Nat) (p : PSBT) (br : Nat) (s : PStream) (h : p.lastKeyPos = 5) :
    (loop junk fuel p br s).1.status = p.status := by
  have h0 : p.sections = 0 := by unfold sections; rw [if_neg (by omega)]
  have : loop junk fuel p br s = p.finishAll br s := by
    cases fuel with
    | zero => rfl
    | succ n =>
      unfold loop
      rw [if_neg]
      rw [h0]
      intro h2
      exact absurd (UInt8.lt_iff_toNat_lt.mp h2.2) (by simp)
  rw [this]
  unfold finishAll
  rw [h0, if_neg (by simp)]
  rfl

theorem afterGlobal_not (junk : Nat → Bytes) (p : PSBT) (br : Nat) (s : PStream) (h : p.lastKeyPos = 5)
    (hn : ¬ (p.value.status = .done ∧ p.key.status = .done)) : (afterGlobal junk p br s).1.status = p.status := by
  unfold afterGlobal
  rw [if_neg (fun h => hn h.2)]
  exact loop_nothing junk _ p br s h

/-- The state behind the first pair. -/
def afterTx (p : PSBT) (t : Tx) (k v : Script) (vb : Bytes) : PSBT :=
  { p with
    key := k, value := v, tx := t, ins := List.replicate t.txIns.length {}, outs := List.replicate t.txOuts.length {}
    bytesParsed := 0, sec := 0, status := .incomplete, lastKeyPos := 5 + (2 + (varBytes vb).length) }

/-- What happens to the first pair. -/
theorem readGlobal_out (junk : Nat → Bytes) (p : PSBT) (hp : p.Clean) (c : Bytes) :
    (∃ vb r k v, c = pairBytes ([0], vb) ++ r ∧ vb.length < 2 ^ 31 ∧ k.Ready ∧ v.Ready ∧
        (p.txStart.fromStream (.of (vb.drop (misread vb.length)))).1.status = .done ∧
        readGlobal junk p.start 5 (.of c) = loop junk (2 * r.length + 2) (p.afterTx (p.txStart.fromStream (.of (vb.drop (misread vb.length)))).1 k v vb)
          (5 + (2 + (varBytes vb).length)) (.of r)) ∨
    (((readGlobal junk p.start 5 (.of c)).1.status ≠ .done ∧ ((readGlobal junk p.start 5 (.of c)).1.status = .ub ↔ FirstUb p.txStart c)) ∧
      ¬ ∃ vb r, c = pairBytes ([0], vb) ++ r ∧ vb.length < 2 ^ 31 ∧ (p.txStart.fromStream (.of (vb.drop (misread vb.length)))).1.status = .done) := by
  have nopair : (∀ d r, readVar c = .ok d r → ∀ d' r', readVar r ≠ .ok d' r') → ¬ ∃ vb r, c = pairBytes ([0], vb) ++ r ∧ vb.length < 2 ^ 31 ∧
      (p.txStart.fromStream (.of (vb.drop (misread vb.length)))).1.status = .done := by
    rintro h ⟨vb, r, rfl, h2, -⟩
    apply h [0] (varBytes vb ++ r) _ vb r (readVar_varBytes vb r h2)
    unfold pairBytes
    rw [List.append_assoc]
    exact readVar_varBytes [0] _ (by decide)
  rw [start_eq hp.status]
  unfold readGlobal
  rw [if_pos (by rfl)]
  unfold parseKey
  dsimp only
  generalize hk : p.key.fromStream (.of c) = x
  obtain ⟨k, n, s⟩ := x
  dsimp only
  unfold parseValue
  dsimp only
  generalize hv : p.value.fromStream s = y
  obtain ⟨v, n2, s2⟩ := y
  dsimp only
  -- what is not done cannot become done
  have novalue : ∀ (q : PSBT) (br : Nat), q.lastKeyPos = 5 → q.status = .incomplete → q.value.status ≠ .ub → q.value.status ≠ .done ∨ q.key.status ≠ .done →
      ¬ FirstUb p.txStart c → (globalValue junk q br (.of [])).1.status ≠ .done ∧ ((globalValue junk q br (.of [])).1.status = .ub ↔ FirstUb p.txStart c) := by
    intro q br h1 h2 h4 h3 h5
    rw [iff_false_right h5]
    unfold globalValue
    rw [if_neg (by simp)]
    dsimp only
    rw [if_neg h4]
    split_ifs
    · simp [finish]
    · rw [afterGlobal_not _ _ _ _ h1 (fun h => h3.elim (absurd h.1) (absurd h.2)), h2]; simp
  by_cases hc : c = []
  · subst hc
    right
    have hF : ¬ FirstUb p.txStart [] := by
      have hb := not_badLen (c := []) (by simp [readVar]) (P := HugeLen)
      rw [firstUb_iff]; simp only [hb]; simp [readVar]
    refine ⟨?_, nopair (by simp [readVar])⟩
    have h1 := Script.empty_ready p.key hp.key
    rw [hk] at h1
    obtain ⟨h2, h3⟩ := h1
    dsimp only at h2 h3
    subst h2
    have h4 := Script.empty_ready p.value hp.value
    rw [hv] at h4
    obtain ⟨h5, h6⟩ := h4
    dsimp only at h5 h6
    subst h5
    unfold globalKey
    rw [if_neg (by simp)]
    dsimp only
    have h7 : k.status ≠ .ub := by rcases h3 with h | h; rw [h]; simp; rw [h.status]; simp
    rw [if_neg h7]
    rw [if_neg (c := v.status = .ub) (by rcases h6 with h | h; rw [h]; simp; rw [h.status]; simp)]
    split_ifs
    · simp [finish, hF]
    · exact novalue _ _ rfl rfl (by dsimp only; rcases h6 with h | h; rw [h]; simp; rw [h.status]; simp)
        (Or.inl (by dsimp only; rcases h6 with h | h; rw [h]; simp; rw [h.status]; simp)) hF
  have hf := Script.feed p.key [] c (Or.inl ⟨hp.key, rfl, hc⟩)
  unfold Script.Outcome at hf
  rw [List.nil_append, hk] at hf
  dsimp only at hf
  cases e : readVar c with
  | bad =>
    rw [e] at hf
    have hk1 := hf.2.1
    have hf : k.status.Stopped := hf.1
    right
    refine ⟨?_, nopair (by rw [e]; simp)⟩
    unfold globalKey
    rw [if_neg (by dsimp only; rcases hf with h | h <;> rw [h] <;> simp)]
    dsimp only
    rcases hf with h | h
    · have hn : ¬ ∃ r, c = 0xff :: r := fun hc => by have := hk1.2 hc; rw [h] at this; cases this
      obtain ⟨p1, r1, f1, f2, f3⟩ := Script.bad_rest p.key hp.key c e hn
      rw [hk] at f3
      dsimp only at f3
      subst f3
      have hvu : (p.value.fromStream (.of r1)).1.status = .ub ↔ HugeLen r1 := by
        by_cases hr1 : r1 = []
        · subst hr1
          have h6 := (Script.empty_ready p.value hp.value).2
          constructor
          · intro h7
            rcases h6 with h6 | h6
            · rw [h6] at h7; cases h7
            · rw [h6.status] at h7; cases h7
          · rintro ⟨_, h, _⟩; cases h
        · exact C81_script p.value hp.value r1 hr1
      rw [hv] at hvu
      dsimp only at hvu
      have hu : FirstUb p.txStart c ↔ v.status = .ub := by
        rw [firstUb_iff, hvu]
        constructor
        · rintro (⟨-, h⟩ | ⟨k', r', h, -⟩ | ⟨p2, r2, g1, g2, g3⟩ | ⟨r1, v1, r2, h, -⟩)
          · exact absurd h hn
          · rw [e] at h; cases h
          · rw [f2] at g2
            rw [badLen_unique f1 g1 g2]
            exact g3
          · rw [e] at h; cases h
        · intro h
          exact Or.inr (Or.inr (Or.inl ⟨p1, r1, f1, f2, h⟩))
      rw [if_neg (by rw [h]; simp), if_pos h, hu]
      by_cases hub : v.status = .ub
      · rw [if_pos hub]; simp [hub]
      · rw [if_neg hub]; simp [finish, hub]
    · have hu : FirstUb p.txStart c := by
        rw [firstUb_iff]
        exact Or.inl ⟨e, hk1.1 h⟩
      rw [if_pos h]; simp [hu]
  | more =>
    rw [e] at hf
    obtain ⟨hm, -, rfl⟩ := hf
    right
    have hF : ¬ FirstUb p.txStart c := by
      have hb := not_badLen (c := c) (by simp [e]) (P := HugeLen)
      rw [firstUb_iff]; simp only [hb]; simp [e]
    refine ⟨?_, nopair (by rw [e]; simp)⟩
    have h4 := Script.empty_ready p.value hp.value
    rw [hv] at h4
    obtain ⟨h5, h6⟩ := h4
    dsimp only at h5 h6
    subst h5
    unfold globalKey
    rw [if_neg (by simp)]
    dsimp only
    rw [if_neg (by rw [hm.status]; simp), if_neg (by rw [hm.status]; simp)]
    exact novalue _ _ rfl rfl (by dsimp only; rcases h6 with h | h; rw [h]; simp; rw [h.status]; simp) (Or.inr (by dsimp only; rw [hm.status]; simp)) hF
  | ok kb r =>
    rw [e] at hf
    obtain ⟨hd, hh, -, hn, rfl⟩ := hf
    have hks := readVar_sound _ _ _ e
    have hkl : kb.length < 2 ^ 64 := by omega
    have hlen := congrArg List.length hks.1
    rw [List.length_append] at hlen
    have hn' : n = (varBytes kb).length := by omega
    have hkr : k.Ready := script_ready_holds k kb hd hh
    unfold globalKey
    dsimp only
    rw [if_neg (show ¬ (s2.avail = true ∧ k.status = .incomplete) by rw [hd]; simp)]
    dsimp only
    rw [if_neg (by rw [hd]; simp), if_neg (by rw [hd]; simp)]
    by_cases hr : r = []
    · subst hr
      right
      have hF : ¬ FirstUb p.txStart c := by
        have hb := not_badLen (c := c) (by simp [e]) (P := HugeLen)
        rw [firstUb_iff]
        simp only [e, hb, false_or]
        rintro (⟨h, -⟩ | ⟨k', r', h, h2⟩ | ⟨r1, v1, r2, h, h2, -⟩)
        · cases h
        · cases h; obtain ⟨_, h, _⟩ := h2; cases h
        · cases h; cases h2
      refine ⟨?_, nopair (by rw [e]; rintro d r h; cases h; simp [readVar])⟩
      have h4 := Script.empty_ready p.value hp.value
      rw [hv] at h4
      obtain ⟨h5, h6⟩ := h4
      dsimp only at h5 h6
      subst h5
      exact novalue _ _ rfl rfl (by dsimp only; rcases h6 with h | h; rw [h]; simp; rw [h.status]; simp)
        (Or.inl (by dsimp only; rcases h6 with h | h; rw [h]; simp; rw [h.status]; simp)) hF
    have hf := Script.feed p.value [] r (Or.inl ⟨hp.value, rfl, hr⟩)
    unfold Script.Outcome at hf
    rw [List.nil_append, hv] at hf
    dsimp only at hf
    cases e2 : readVar r with
    | bad =>
      rw [e2] at hf
      have hu : FirstUb p.txStart c ↔ v.status = .ub := by
        have hb := not_badLen (c := c) (by simp [e]) (P := HugeLen)
        rw [firstUb_iff, hf.2.1]
        simp only [e, hb, false_or]
        constructor
        · rintro (⟨h, -⟩ | ⟨k', r', h, h2⟩ | ⟨r1, v1, r2, h, h2, -⟩)
          · cases h
          · cases h; exact ((hugeLen_iff r).mp h2).2
          · cases h; rw [e2] at h2; cases h2
        · intro h
          exact Or.inr (Or.inl ⟨kb, r, rfl, (hugeLen_iff r).mpr ⟨e2, h⟩⟩)
      have hf : v.status.Stopped := hf.1
      right
      refine ⟨?_, nopair (by rw [e]; rintro d r h; cases h; rw [e2]; simp)⟩
      unfold globalValue
      dsimp only
      rw [if_neg (show ¬ (s2.avail = true ∧ v.status = .incomplete) by rcases hf with h | h <;> rw [h] <;> simp)]
      dsimp only
      rcases hf with h | h
      · rw [if_neg (by rw [h]; simp), if_pos h, hu, h]; simp [finish]
      · rw [if_pos h, hu, h]; simp
    | more =>
      rw [e2] at hf
      obtain ⟨hm, -, rfl⟩ := hf
      right
      have hF : ¬ FirstUb p.txStart c := by
        have hb := not_badLen (c := c) (by simp [e]) (P := HugeLen)
        rw [firstUb_iff]
        simp only [e, hb, false_or]
        rintro (⟨h, -⟩ | ⟨k', r', h, h2⟩ | ⟨r1, v1, r2, h, h2, -⟩)
        · cases h
        · cases h; rw [hugeLen_iff, e2] at h2; cases h2.1
        · cases h; rw [e2] at h2; cases h2
      refine ⟨?_, nopair (by rw [e]; rintro d r h; cases h; rw [e2]; simp)⟩
      exact novalue _ _ rfl rfl (by dsimp only; rw [hm.status]; simp) (Or.inl (by dsimp only; rw [hm.status]; simp)) hF
    | ok vb r' =>
      rw [e2] at hf
      obtain ⟨hdv, hhv, -, hnv, rfl⟩ := hf
      have hvs := readVar_sound _ _ _ e2
      have hvl : vb.length < 2 ^ 64 := by omega
      have hlen := congrArg List.length hvs.1
      rw [List.length_append] at hlen
      have hn2 : n2 = (varBytes vb).length := by omega
      have hvr : v.Ready := script_ready_holds v vb hdv hhv
      unfold globalValue
      dsimp only
      rw [if_neg (show ¬ ((PStream.of r').avail = true ∧ v.status = .incomplete) by rw [hdv]; simp)]
      dsimp only
      rw [if_neg (by rw [hdv]; simp), if_neg (by rw [hdv]; simp)]
      unfold afterGlobal
      rw [if_pos ⟨rfl, hdv, hd⟩]
      unfold PSBT.readTx
      dsimp only
      rw [Script.ser_eq hh hkl, C.bind_ok]
      have hpairs : c = pairBytes (kb, vb) ++ r' := by
        unfold pairBytes
        rw [List.append_assoc, ← hvs.1]; exact hks.1
      have hF : FirstUb p.txStart c ↔ kb = [0] ∧ (p.txStart.fromStream (.of (vb.drop (misread vb.length)))).1.status = .ub := by
        have hb := not_badLen (c := c) (by simp [e]) (P := HugeLen)
        rw [firstUb_iff]
        simp only [e, hb, false_or]
        constructor
        · rintro (⟨h, -⟩ | ⟨k', r1, h, h2⟩ | ⟨r1, v1, r2, h, h2, h3⟩)
          · cases h
          · cases h; rw [hugeLen_iff, e2] at h2; cases h2.1
          · cases h; rw [e2] at h2; cases h2; exact ⟨rfl, h3⟩
        · rintro ⟨rfl, h⟩
          exact Or.inr (Or.inr ⟨r, vb, r', rfl, e2, h⟩)
      by_cases hk0 : varBytes kb ≠ [1, 0]
      · rw [if_pos hk0]
        right
        refine ⟨?_, ?_⟩
        · rw [hF]
          have : kb ≠ [0] := by rintro rfl; exact hk0 (by decide)
          simp [finish, this]
        rintro ⟨vb', r2, h1, -⟩
        apply hk0
        rw [h1] at e
        unfold pairBytes at e
        rw [List.append_assoc, readVar_varBytes [0] _ (by decide)] at e
        cases e; rfl
      rw [not_not] at hk0
      have hkb : kb = [0] := by
        have : readVar ([1, 0] : Bytes) = .ok [0] [] := by decide
        rw [← hk0] at this
        have h2 := readVar_varBytes kb [] hks.2
        rw [List.append_nil, this] at h2
        cases h2; rfl
      subst hkb
      rw [if_neg (by simpa using hk0), Script.ser_eq hhv hvl, C.bind_ok]
      rw [drop_dataPos vb hvs.2]
      generalize ht : (p.txStart.fromStream (.of (vb.drop (misread vb.length)))).1 = t
      have uniq : t.status ≠ .done → ¬ ∃ vb r, c = pairBytes ([0], vb) ++ r ∧ vb.length < 2 ^ 31 ∧
          (p.txStart.fromStream (.of (vb.drop (misread vb.length)))).1.status = .done := by
        rintro hnd ⟨vb', r2, h1, h2, h3⟩
        apply hnd
        have h4 := e
        rw [h1] at h4
        unfold pairBytes at h4
        rw [List.append_assoc, readVar_varBytes [0] _ (by decide)] at h4
        cases h4
        have h5 := e2
        rw [readVar_varBytes vb' _ h2] at h5
        cases h5
        rw [← ht]; exact h3
      by_cases hu : t.status = .ub
      · rw [if_pos hu]
        exact Or.inr ⟨by rw [hF, ht, hu]; simp, uniq (by rw [hu]; simp)⟩
      rw [if_neg hu]
      by_cases htd : t.status ≠ .done
      · rw [if_pos htd]
        exact Or.inr ⟨by rw [hF, ht]; simp [finish, hu], uniq htd⟩
      rw [if_neg htd, C.pure_eq]
      dsimp only
      rw [if_neg (by simp)]
      left
      refine ⟨vb, r', k, v, hpairs, hvs.2, hkr, hvr, by rw [ht]; exact not_not.mp htd, ?_⟩
      rw [ht, Script.length_eq k _ hh hkl, Script.length_eq v _ hhv hvl, hn', hn2, Nat.add_assoc]
      rfl

/-- The state of the metadata before the first map. -/
def noMeta (t : Tx) : List InMeta × List OutMeta := (List.replicate t.txIns.length {}, List.replicate t.txOuts.length {})

/-- `bs` are the bytes of a PSBT that the parser accepts, with the transaction `vb` and the maps `maps` (the first one holds the other global pairs);
`t` is the transaction object, `ms` the metadata. -/
structure Accepts (junk : Nat → Bytes) (p : PSBT) (vb : Bytes) (maps : List (List Pair)) (t : Tx) (ms : List InMeta × List OutMeta) : Prop where
  size : vb.length < 2 ^ 31
  tx : t = (p.txStart.fromStream (.of (vb.drop (misread vb.length)))).1
  done : t.status = .done
  sections : maps.length = (UInt8.ofNat (1 + t.txIns.length + t.txOuts.length)).toNat
  pos : 0 < maps.length
  good : ∀ m ∈ maps, ∀ q ∈ m, GoodPair q
  run : ∃ pos, runMaps t junk maps 0 (5 + (2 + (varBytes vb).length)) (noMeta t) = .ok (some (pos, ms))

/-- The result of an accepting parse. -/
structure Parsed (res : PSBT × Nat × PStream) (t : Tx) (ms : List InMeta × List OutMeta) (n : Nat) (rest : Bytes) : Prop where
  status : res.1.status = .done
  tx : res.1.tx = t
  ins : res.1.ins = ms.1
  outs : res.1.outs = ms.2
  key : res.1.key.Ready
  value : res.1.value.Ready
  read : res.2.1 = n
  stream : res.2.2 = .of rest

theorem fromStream_eq (junk : Nat → Bytes) {p : PSBT} (hp : p.Clean) (s : PStream) :
    fromStream junk p s = match readMagic magic 0 s with
    | (false, br, s) => p.start.finish .failed br s
    | (true, br, s) => readGlobal junk p.start br s := by
  unfold fromStream
  rw [if_neg (by rw [hp.status]; simp), if_neg (fun h => hp.released h.2)]
  have : p.start.bytesParsed = 0 := by rw [start_eq hp.status]
  dsimp only
  rw [this, List.drop_zero]
  rfl

theorem short_fails (junk : Nat → Bytes) {p : PSBT} (hp : p.Clean) (n : Nat) (hn : n ≠ 5) : (readGlobal junk p.start n (.of [])).1.status = .failed := by
  rw [start_eq hp.status]
  unfold readGlobal
  rw [if_neg (by dsimp only; omega)]
  unfold globalKey
  dsimp only
  rw [if_neg (show ¬ ((PStream.of []).avail = true ∧ p.key.status = .incomplete) by simp)]
  dsimp only
  rw [if_neg (by rw [hp.key.1]; simp), if_neg (by rw [hp.key.1]; simp)]
  unfold globalValue
  dsimp only
  rw [if_neg (show ¬ ((PStream.of []).avail = true ∧ p.value.status = .incomplete) by simp)]
  dsimp only
  rw [if_neg (by rw [hp.value.1]; simp), if_neg (by rw [hp.value.1]; simp)]
  unfold afterGlobal
  rw [if_pos ⟨rfl, hp.value.1, hp.key.1⟩]
  unfold PSBT.readTx
  have hh : p.key.Holds [] := ⟨hp.keyEmpty, List.eq_nil_of_length_eq_zero (by rw [hp.key.2, hp.keyEmpty])⟩
  rw [Script.ser_eq hh (by simp), C.bind_ok, if_pos (by decide)]
  rfl

theorem sections_afterTx (p : PSBT) (t : Tx) (k v : Script) (vb : Bytes) :
    (p.afterTx t k v vb).sections = UInt8.ofNat (1 + t.txIns.length + t.txOuts.length) := by
  unfold PSBT.sections afterTx
  rw [if_pos (by dsimp only; omega)]

/-- A parse of a clean object from a stream that delivers everything: DONE means that the bytes are an accepted PSBT. -/
theorem parse_sound (junk : Nat → Bytes) {p : PSBT} (hp : p.Clean) {bs : Bytes} (h : (fromStream junk p (.of bs)).1.status = .done) :
    ∃ vb maps rest t ms, bs = psbtMagic ++ pairBytes ([0], vb) ++ mapsBytes maps ++ rest ∧ Accepts junk p vb maps t ms ∧
      Parsed (fromStream junk p (.of bs)) t ms (bs.length - rest.length) rest := by
  rw [fromStream_eq junk hp] at h ⊢
  rcases readMagic_spec magic 0 bs with ⟨c, h1, h2⟩ | ⟨h1, h2, h3⟩ | ⟨-, -, h3⟩
  · rw [h2] at h ⊢
    dsimp only at h ⊢
    rw [show 0 + magic.length = 5 from rfl] at h ⊢
    rcases readGlobal_out junk p hp c with ⟨vb, r, k, v, e1, e2, e3, e4, e5, e6⟩ | ⟨e1, -⟩
    · rw [e6] at h ⊢
      obtain ⟨maps, rest, pos, ms, l1, l2, l3, l4, l5⟩ := loop_sound junk _ (p.afterTx (p.txStart.fromStream (.of (vb.drop (misread vb.length)))).1 k v vb) _ _
        e3 e4 rfl (by unfold afterTx; dsimp only; omega) h
      rw [sections_afterTx] at l1
      have l1' : maps.length = (UInt8.ofNat (1 + (p.txStart.fromStream (.of (vb.drop (misread vb.length)))).1.txIns.length + (p.txStart.fromStream (.of (vb.drop (misread vb.length)))).1.txOuts.length)).toNat := by
        rw [← l1]; exact (Nat.zero_add _).symm
      refine ⟨vb, maps, rest, _, ms, ?_, ⟨e2, rfl, e5, l1', ?_, l3, pos, l4⟩, ⟨l5.status, l5.tx, l5.ins, l5.outs, l5.key, l5.value, ?_, l5.stream⟩⟩
      · rw [h1, e1, l2, ← List.append_assoc, ← List.append_assoc]; rfl
      · have := l5.some
        rw [sections_afterTx, gt_iff_lt, UInt8.lt_iff_toNat_lt] at this
        rw [l1']; exact this
      · have h7 := l5.read
        have h8 := congrArg List.length e1
        have h9 := congrArg List.length h1
        have h10 := congrArg List.length l2
        simp only [List.length_append, pairBytes, show (varBytes [0]).length = 2 from rfl, show magic.length = 5 from rfl] at h7 h8 h9 h10
        omega
    · exact absurd h e1.1
  · rw [h3] at h
    dsimp only at h
    rw [short_fails junk hp _ (by have : magic.length = 5 := rfl; omega)] at h
    cases h
  · exfalso
    revert h h3
    generalize readMagic magic 0 (.of bs) = x
    obtain ⟨b, n, s⟩ := x
    rintro h rfl
    simp [finish] at h

theorem parse_complete (junk : Nat → Bytes) {p : PSBT} (hp : p.Clean) {vb : Bytes} {maps : List (List Pair)} {t : Tx} {ms : List InMeta × List OutMeta}
    (h : Accepts junk p vb maps t ms) (rest : Bytes) :
    Parsed (fromStream junk p (.of (psbtMagic ++ pairBytes ([0], vb) ++ mapsBytes maps ++ rest))) t ms
      (psbtMagic ++ pairBytes ([0], vb) ++ mapsBytes maps).length rest := by
  rw [fromStream_eq junk hp]
  obtain ⟨c, hc⟩ : ∃ c, c = pairBytes ([0], vb) ++ (mapsBytes maps ++ rest) := ⟨_, rfl⟩
  have hbs : psbtMagic ++ pairBytes ([0], vb) ++ mapsBytes maps ++ rest = magic ++ c := by
    rw [hc]; simp only [List.append_assoc]; rfl
  rw [hbs]
  have hm : readMagic magic 0 (.of (magic ++ c)) = (true, 5, .of c) := by
    simp [magic, readMagic, PStream.avail, PStream.readByte]
  rw [hm]
  dsimp only
  rcases readGlobal_out junk p hp c with ⟨vb', r, k, v, e1, e2, e3, e4, e5, e6⟩ | ⟨-, e2⟩
  · have hvr : vb' = vb ∧ r = mapsBytes maps ++ rest := by
      rw [hc] at e1
      unfold pairBytes at e1
      simp only [List.append_assoc] at e1
      have h1 := List.append_cancel_left e1
      have h2 := readVar_varBytes vb (mapsBytes maps ++ rest) h.size
      rw [h1, readVar_varBytes vb' r e2] at h2
      cases h2; exact ⟨rfl, rfl⟩
    obtain ⟨rfl, rfl⟩ := hvr
    obtain ⟨pos, hrun⟩ := h.run
    have htx := h.tx
    rw [e6, ← htx]
    have l5 := loop_complete junk (2 * (mapsBytes maps ++ rest).length + 2) (p.afterTx t k v vb') (5 + (2 + (varBytes vb').length)) maps rest pos ms
      e3 e4 rfl (by unfold afterTx; dsimp only; omega) (by
        rw [sections_afterTx, gt_iff_lt, UInt8.lt_iff_toNat_lt, ← h.sections]; exact h.pos)
      (by rw [sections_afterTx, ← h.sections]; exact Nat.zero_add _) h.good (by rw [List.length_append]; omega) hrun
    refine ⟨l5.status, l5.tx, l5.ins, l5.outs, l5.key, l5.value, ?_, l5.stream⟩
    have h7 := l5.read
    simp only [List.length_append, pairBytes, show (varBytes [0]).length = 2 from rfl, show psbtMagic.length = 5 from rfl] at h7 ⊢
    omega
  · exfalso
    apply e2
    exact ⟨vb, _, hc, h.size, by rw [← h.tx]; exact h.done⟩

end PSBT
end UB
