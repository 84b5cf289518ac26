import Verif.Lemmas.Electrum
import Verif.Lemmas.TxReach
import Verif.Lemmas.Pieces

/-
Lemmas for C72: documents of Electrum that arrive in pieces.
-/

namespace UB
open Spec

namespace ElectrumTx

/-! #### Fields of the data that arrive in pieces -/

/-- What reading up to position `b` does at position `t` of the bytes `T`, of which `c` are there. -/
theorem field {T c : Bytes} {t : Nat} (hc : c <+: T.drop t) (a b : Nat) (hab : a ≤ t ∨ c = []) :
    (T.drop a).take (min t b - a) ++ c.take (b - t) = (T.drop a).take (min (t + (c.take (b - t)).length) b - a) ∧ c.drop (b - t) <+: T.drop (t + (c.take (b - t)).length) ∧
      t + (c.take (b - t)).length + (c.drop (b - t)).length = t + c.length ∧ (c.drop (b - t) = [] ∨ b ≤ t + (c.take (b - t)).length) ∧
      t + (c.take (b - t)).length ≤ max t b := by
  refine ⟨?_, ?_, ?_, ?_, ?_⟩
  · rcases hab with hab | rfl
    · by_cases hb : b ≤ t
      · rw [show b - t = 0 by omega]
        simp
      · have e1 : c.take (b - t) = (T.drop t).take (c.take (b - t)).length := by
          have := List.prefix_iff_eq_take.mp ((List.take_prefix (b - t) c).trans hc)
          exact this
        have hl : (c.take (b - t)).length ≤ b - t := by simp
        generalize c.take (b - t) = x at e1 hl ⊢
        have h2 : min (t + x.length) b - a = (t - a) + x.length := by omega
        have h3 : T.drop t = (T.drop a).drop (t - a) := by rw [List.drop_drop, show a + (t - a) = t by omega]
        rw [h2, List.take_add, ← h3, ← e1, show min t b - a = t - a by omega]
    · simp
  · obtain ⟨d, hd⟩ := hc
    refine ⟨d, ?_⟩
    rw [← List.drop_drop, ← hd]
    have : c ++ d = c.take (b - t) ++ (c.drop (b - t) ++ d) := by rw [← List.append_assoc, List.take_append_drop]
    rw [this, List.drop_left' rfl]
  · simp only [List.length_take, List.length_drop]; omega
  · by_cases h : c.length ≤ b - t
    · exact Or.inl (List.drop_eq_nil_of_le h)
    · refine Or.inr ?_
      rw [List.length_take]; omega
  · rw [List.length_take]; omega

theorem field_length {T c : Bytes} {t : Nat} (hc : c <+: T.drop t) (a b : Nat) (hab : a ≤ t ∨ c = []) :
    c.take (b - t) = [] ∨ ((T.drop a).take (min t b - a)).length = t - a := by
  by_cases h : c.take (b - t) = []
  · exact Or.inl h
  · right
    have h0 : c ≠ [] := by rintro rfl; simp at h
    have ha : a ≤ t := by rcases hab with h | h; exacts [h, absurd h h0]
    have hb : t < b := by
      by_contra hb
      rw [show b - t = 0 by omega] at h
      simp at h
    have hl := hc.length_le
    have := List.length_pos_iff.mpr h0
    rw [List.length_drop] at hl
    rw [List.length_take, List.length_drop]
    omega

/-- The extended key after `j` of its 78 bytes `x`. -/
def HdAt (junk : Bytes) (hd : HDPub) (x : Bytes) (j : Nat) : Prop :=
  (j = 0 ∧ hd = {}) ∨ (0 < j ∧ j < 78 ∧ hd.Got (x.take j)) ∨ (78 ≤ j ∧ HDPub.Has junk hd x)

/-- A valid extended key. -/
def GoodKey (x : Bytes) : Prop := ∃ (hd : HDPub) (P : Pt), hd.Holds P ∧ hd.head.network ∈ networks ∧ x = hd.whole P

theorem GoodKey.length {x : Bytes} (h : GoodKey x) : x.length = 78 := by
  obtain ⟨hd, P, h1, h2, rfl⟩ := h
  exact HDPub.whole_length h1 h2

theorem GoodKey.fine {x : Bytes} (h : GoodKey x) (j : Nat) : HDPub.Fine (x.take j) := by
  have : HDPub.Fine x := by
    obtain ⟨hd, P, h1, h2, rfl⟩ := h
    obtain ⟨net, hn, t, e⟩ := HDPub.whole_take (k := hd) (P := P) h2
    intro _
    rw [e, (findPrefix_written net hn t).2]
    rfl
  rw [← List.take_append_drop j x] at this
  exact this.prefix

theorem HdAt.stable {junk : Bytes} {hd : HDPub} {x : Bytes} {j j' : Nat} (h : HdAt junk hd x j) (e : 78 ≤ j) (e' : 78 ≤ j') : HdAt junk hd x j' := by
  rcases h with ⟨h, _⟩ | ⟨_, h, _⟩ | ⟨_, h⟩
  · omega
  · omega
  · exact Or.inr (Or.inr ⟨e', h⟩)

theorem HdAt.sound {junk : Bytes} {hd : HDPub} {x : Bytes} {j : Nat} (h : HdAt junk hd x j) (hg : GoodKey x) : hd.key.status ≠ .ub := by
  rcases h with ⟨_, rfl⟩ | ⟨_, _, h⟩ | ⟨_, h⟩
  · decide
  · rw [h.status]; decide
  · obtain ⟨k, P, h1, h2, rfl⟩ := hg
    rw [(HDPub.has_same h1 h2 h).1.status]
    decide

/-- Reading the rest of the key, as far as it is there. -/
theorem readHd_at (junk : Bytes) (fuel : Nat) {hd : HDPub} {x : Bytes} (hg : GoodKey x) {T c : Bytes} {t a off : Nat} (hx : x = (T.drop a).take 78)
    (h : HdAt junk hd x (min t (a + 78) - a)) (hc : c <+: T.drop t) (ha : a ≤ t ∨ c = []) :
    ∃ hd', readHd junk (off + a + 78) (fuel + 2) hd (off + t) (.of c) = some (hd', off + (t + (c.take (a + 78 - t)).length), .of (c.drop (a + 78 - t))) ∧
      HdAt junk hd' x (min (t + (c.take (a + 78 - t)).length) (a + 78) - a) := by
  by_cases h0 : c = []
  · subst h0
    refine ⟨hd, ?_, by simpa using h⟩
    rw [readHd, if_neg (by simp [PStream.avail])]
    simp
  have ha : a ≤ t := by rcases ha with h | h; exacts [h, absurd h h0]
  by_cases ht : a + 78 ≤ t
  · rw [show a + 78 - t = 0 by omega]
    refine ⟨hd, ?_, by simpa using h⟩
    rw [readHd, if_neg (by omega)]
    simp
  have hav : (PStream.of c).avail = true := by
    cases c with
    | nil => exact absurd rfl h0
    | cons b c => rfl
  have hu := h.sound hg
  have hlen := hg.length
  -- all bytes of the key so far
  obtain ⟨f1, f2, f3, f4, f5⟩ := field hc a (a + 78) (Or.inl ha)
  have hxt : ∀ n, (T.drop a).take (min n (a + 78) - a) = x.take (min n (a + 78) - a) := by
    intro n
    rw [hx, List.take_take]
    congr 1
    omega
  rw [hxt, hxt] at f1
  -- a state from which the key goes on
  obtain ⟨k, hk, hgot⟩ : ∃ k : HDPub, hd.fromStream junk (.of c) = k.fromStream junk { bytes := c } ∧ k.Got (x.take (min t (a + 78) - a)) := by
    rcases h with ⟨hj, rfl⟩ | ⟨_, _, h⟩ | ⟨hj, _⟩
    · refine ⟨_, HDPub.start junk {} c rfl, ?_⟩
      rw [hj, List.take_zero]
      exact HDPub.got_start {} rfl rfl ⟨rfl, rfl, rfl⟩
    · exact ⟨hd, rfl, h⟩
    · omega
  have hm : (x.take (min t (a + 78) - a)).length = t - a := by rw [List.length_take, hlen]; omega
  obtain ⟨s1, s2, -⟩ := HDPub.step junk c hgot (by omega)
  have hsplit : x.take (min t (a + 78) - a) ++ c = x.take (min (t + (c.take (a + 78 - t)).length) (a + 78) - a) ++ c.drop (a + 78 - t) := by
    rw [← f1, List.append_assoc, List.take_append_drop]
  have hfine : HDPub.Fine (x.take (min t (a + 78) - a) ++ c) := by
    by_cases h4 : 4 ≤ (x.take (min (t + (c.take (a + 78 - t)).length) (a + 78) - a)).length
    · rw [hsplit]
      intro _
      rw [List.take_append_of_le_length h4]
      exact hg.fine _ h4
    · rcases f4 with f4 | f4
      · rw [hsplit, f4, List.append_nil]
        exact hg.fine _
      · rw [List.length_take, hlen] at h4
        omega
  rw [readHd, if_pos ⟨hav, by omega, hu⟩, hk]
  by_cases hl : (x.take (min t (a + 78) - a) ++ c).length < 78
  · obtain ⟨k', e1, e2⟩ := s1 hfine hl
    rw [e1]
    rw [List.length_append, hm] at hl
    have hall : c.take (a + 78 - t) = c := List.take_of_length_le (by omega)
    have hnil : c.drop (a + 78 - t) = [] := List.drop_eq_nil_of_le (by omega)
    rw [hall, hnil] at hsplit ⊢
    rw [List.append_nil] at hsplit
    refine ⟨k', ?_, Or.inr (Or.inl ⟨?_, by omega, ?_⟩)⟩
    · dsimp only
      rw [readHd, if_neg (by simp [PStream.avail]), Nat.add_assoc]
    · have := List.length_pos_iff.mpr h0
      omega
    · rw [← hsplit]
      exact e2
  · obtain ⟨g, q, q1, q2, q3, q4⟩ := s2 hfine (by omega)
    rw [List.length_append, hm] at hl
    have htl : (c.take (a + 78 - t)).length = a + 78 - t := by rw [List.length_take]; omega
    have h78 : min (t + (c.take (a + 78 - t)).length) (a + 78) - a = 78 := by omega
    rw [h78, List.take_of_length_le (i := 78) (by omega)] at hsplit
    rw [hsplit, List.take_left' hlen] at q1 q3
    have hhas : HDPub.Has junk (k.fromStream junk { bytes := c }).1 x := ⟨k, q, g, _, _, _, _, hgot.compressed, q1, q2, q3, by rw [q4]⟩
    obtain ⟨hd0, P, g1, g2, g3⟩ := hg
    have hd45 : x.drop 45 = secOf true P := by rw [g3, HDPub.whole_eq, List.drop_left' (HDPub.head_len g1 g2)]
    rw [hm, show 78 - (t - a) = a + 78 - t by omega] at q4
    unfold HDPub.last at q4
    rw [HDPub.finish_point junk g1.ne (p := { k.key with point := q }) q2 hgot.compressed (by rw [q3, hd45])] at q4
    dsimp only at q4
    rw [q4] at hhas ⊢
    rw [h78]
    refine ⟨_, ?_, Or.inr (Or.inr ⟨le_refl _, hhas⟩)⟩
    dsimp only
    rw [readHd, if_neg (by omega), htl, Nat.add_assoc]

/-- What the metadata of an input whose data starts at position `s` of `T` says when the bytes before position `t` have been read. -/
structure MetaAt (junk : Bytes) (m : ElectrumMeta) (T : Bytes) (s t : Nat) : Prop where
  good : GoodKey ((T.drop (s + 20)).take 78)
  amount : m.amount = some (UInt64.ofNat (leValue ((T.drop (s + 5)).take (min t (s + 13) - (s + 5)))))
  derivation : m.derivation = some (addDerivation (0, 0) 0 ((T.drop (s + 98)).take (min t (s + 102) - (s + 98))))
  hd : HdAt junk m.hd ((T.drop (s + 20)).take 78) (min t (s + 20 + 78) - (s + 20))

theorem MetaAt.stable {junk : Bytes} {m : ElectrumMeta} {T : Bytes} {s t t' : Nat} (h : MetaAt junk m T s t) (e : s + 102 ≤ t) (e' : s + 102 ≤ t') : MetaAt junk m T s t' := by
  obtain ⟨h1, h2, h3, h4⟩ := h
  refine ⟨h1, ?_, ?_, h4.stable (by omega) (by omega)⟩
  · rw [h2, show min t' (s + 13) - (s + 5) = min t (s + 13) - (s + 5) by omega]
  · rw [h3, show min t' (s + 102) - (s + 98) = min t (s + 102) - (s + 98) by omega]

theorem MetaAt.early {junk : Bytes} {m : ElectrumMeta} {T : Bytes} {s t t' : Nat} (h : MetaAt junk m T s t) (e : t ≤ s) (e' : t' ≤ s) : MetaAt junk m T s t' := by
  obtain ⟨h1, h2, h3, h4⟩ := h
  refine ⟨h1, ?_, ?_, ?_⟩
  · rw [h2, show min t' (s + 13) - (s + 5) = min t (s + 13) - (s + 5) by omega]
  · rw [h3, show min t' (s + 102) - (s + 98) = min t (s + 102) - (s + 98) by omega]
  · rw [show min t' (s + 20 + 78) - (s + 20) = min t (s + 20 + 78) - (s + 20) by omega]
    exact h4

theorem addAmount_append (v : UInt64) (i : Nat) (x y : Bytes) : addAmount (addAmount v i x) (i + x.length) y = addAmount v i (x ++ y) := by
  induction x generalizing v i with
  | nil => rfl
  | cons b x ih =>
    rw [List.cons_append, addAmount, addAmount, ← ih, List.length_cons]
    congr 1; omega

theorem addDerivation_append (v : UInt16 × UInt16) (i : Nat) (x y : Bytes) : addDerivation (addDerivation v i x) (i + x.length) y = addDerivation v i (x ++ y) := by
  induction x generalizing v i with
  | nil => rfl
  | cons b x ih =>
    rw [List.cons_append, addDerivation, addDerivation, ← ih, List.length_cons]
    congr 1; omega

theorem addAmount_value (bs : Bytes) (h : bs.length ≤ 8) : addAmount 0 0 bs = UInt64.ofNat (leValue bs) := by
  have h1 := leValue_lt bs
  have h2 : 256 ^ bs.length ≤ 256 ^ 8 := Nat.pow_le_pow_right (by decide) h
  have := addAmount_spec bs 0 0 (by simp; omega)
  simpa using this

/-- Reading the data of one input, as far as it is there. -/
theorem readMeta_at (junk : Bytes) (fuel off : Nat) {m : ElectrumMeta} {T c : Bytes} {s t : Nat} (h : MetaAt junk m T s t) (hc : c <+: T.drop t) (hs : s ≤ t ∨ c = []) :
    ∃ m' t' c', readMeta junk (fuel + 2) (off + s) m (off + t) (.of c) = some (m', off + t', .of c') ∧ MetaAt junk m' T s t' ∧ c' <+: T.drop t' ∧
      t' + c'.length = t + c.length ∧ t ≤ t' ∧ (c' = [] ∨ s + 102 ≤ t') ∧ t' ≤ max t (s + 102) := by
  obtain ⟨h1, h2, h3, h4⟩ := h
  unfold readMeta
  rw [PStream.readN_of, show off + s + 5 - (off + t) = s + 5 - t by omega]
  dsimp only
  obtain ⟨a1, a2, a3, a4, a5⟩ := field hc s (s + 5) hs
  generalize ht1 : t + (c.take (s + 5 - t)).length = t1 at a1 a2 a3 a4 a5
  generalize hc1 : c.drop (s + 5 - t) = c1 at a2 a3 a4
  have e1 : off + t + (c.take (s + 5 - t)).length = off + t1 := by omega
  rw [e1, PStream.readN_of, show off + s + 13 - (off + t1) = s + 13 - t1 by omega]
  dsimp only
  have hlo : t ≤ t1 := by omega
  -- the amount
  have h2' : m.amount = some (UInt64.ofNat (leValue ((T.drop (s + 5)).take (min t1 (s + 13) - (s + 5))))) := by
    rw [h2, show min t1 (s + 13) - (s + 5) = min t (s + 13) - (s + 5) by omega]
  obtain ⟨b1, b2, b3, b4, b5⟩ := field a2 (s + 5) (s + 13) a4.symm
  generalize hx : c1.take (s + 13 - t1) = x at b1 b2 b3 b4 b5
  generalize ht2 : t1 + x.length = t2 at b1 b2 b3 b4 b5
  generalize hc2 : c1.drop (s + 13 - t1) = c2 at b2 b3 b4
  have e2 : off + t1 + x.length = off + t2 := by omega
  rw [e2, PStream.readN_of, show off + s + 20 - (off + t2) = s + 20 - t2 by omega]
  dsimp only
  obtain ⟨d1, d2, d3, d4, d5⟩ := field b2 (s + 13) (s + 20) b4.symm
  generalize ht3 : t2 + (c2.take (s + 20 - t2)).length = t3 at d1 d2 d3 d4 d5
  generalize hc3 : c2.drop (s + 20 - t2) = c3 at d2 d3 d4
  have e3 : off + t2 + (c2.take (s + 20 - t2)).length = off + t3 := by omega
  rw [e3]
  have h4' : HdAt junk m.hd ((T.drop (s + 20)).take 78) (min t3 (s + 20 + 78) - (s + 20)) := by
    rw [show min t3 (s + 20 + 78) - (s + 20) = min t (s + 20 + 78) - (s + 20) by omega]
    exact h4
  obtain ⟨hd, g1, g2⟩ := readHd_at junk fuel h1 (off := off) rfl h4' d2 d4.symm
  obtain ⟨-, f2, f3, f4, f5⟩ := field d2 (s + 20) (s + 20 + 78) d4.symm
  generalize ht4 : t3 + (c3.take (s + 20 + 78 - t3)).length = t4 at f2 f3 f4 f5 g1 g2
  generalize hc4 : c3.drop (s + 20 + 78 - t3) = c4 at f2 f3 f4 g1
  rw [show off + s + 98 = off + (s + 20) + 78 by omega, g1]
  simp only [Option.bind_eq_bind, Option.bind_some]
  rw [PStream.readN_of, show off + s + 102 - (off + t4) = s + 102 - t4 by omega]
  dsimp only
  obtain ⟨i1, i2, i3, i4, i5⟩ := field f2 (s + 98) (s + 102) f4.symm
  generalize hy : c4.take (s + 102 - t4) = y at i1 i2 i3 i4 i5
  generalize ht5 : t4 + y.length = t5 at i1 i2 i3 i4 i5
  refine ⟨_, t5, _, by rw [show off + t4 + y.length = off + t5 by omega]; rfl, ⟨h1, ?_, ?_, ?_⟩, i2, by omega, by omega, i4, by omega⟩
  · dsimp only
    rw [h2', Option.map_some, ← addAmount_value _ (by rw [List.length_take]; omega), ← addAmount_value _ (by rw [List.length_take]; omega)]
    congr 1
    have hst : min t5 (s + 13) - (s + 5) = min t2 (s + 13) - (s + 5) := by
      rcases b4 with h | h
      · rw [h, List.length_nil] at d3
        omega
      · omega
    rw [hst, ← b1, ← addAmount_append, Nat.zero_add]
    rcases field_length a2 (s + 5) (s + 13) a4.symm with h | h
    · rw [hx] at h
      rw [h, addAmount, addAmount]
    · rw [h, show off + t1 - (off + s + 5) = t1 - (s + 5) by omega]
  · dsimp only
    have hst : min t4 (s + 102) - (s + 98) = min t (s + 102) - (s + 98) := by omega
    rw [h3, Option.map_some, ← i1, ← addDerivation_append, Nat.zero_add, hst]
    congr 1
    rcases field_length f2 (s + 98) (s + 102) f4.symm with h | h
    · rw [hy] at h
      rw [h, addDerivation, addDerivation]
    · rw [hst] at h
      rw [h, show off + t4 - (off + (s + 20) + 78) = t4 - (s + 98) by omega]
  · have hst : min t5 (s + 20 + 78) - (s + 20) = min t4 (s + 20 + 78) - (s + 20) := by
      rcases f4 with h | h
      · rw [h, List.length_nil] at i3
        omega
      · omega
    rw [hst]
    exact g2

/-- The metadata of several inputs. -/
def MetasAt (junk : Bytes) (T : Bytes) (t : Nat) : Nat → List ElectrumMeta → Prop
  | _, [] => True
  | s, m :: ms => MetaAt junk m T s t ∧ MetasAt junk T t (s + 102) ms

theorem MetasAt.early {junk T : Bytes} {t t' : Nat} : ∀ {s : Nat} {ms : List ElectrumMeta}, MetasAt junk T t s ms → t ≤ s → t' ≤ s → MetasAt junk T t' s ms
  | _, [], _, _, _ => trivial
  | _, _ :: _, h, e, e' => ⟨h.1.early e e', h.2.early (by omega) (by omega)⟩

theorem MetasAt.late {junk T : Bytes} {t t' : Nat} : ∀ {s : Nat} {ms : List ElectrumMeta}, MetasAt junk T t s ms → s + 102 * ms.length ≤ t → s + 102 * ms.length ≤ t' →
    MetasAt junk T t' s ms
  | _, [], _, _, _ => trivial
  | _, _ :: _, h, e, e' => by
    rw [List.length_cons] at e e'
    exact ⟨h.1.stable (by omega) (by omega), h.2.late (by omega) (by omega)⟩

theorem MetasAt.sound {junk T : Bytes} {t : Nat} : ∀ {s : Nat} {ms : List ElectrumMeta}, MetasAt junk T t s ms → ms.any (fun m => m.hd.key.status = .ub) = false
  | _, [], _ => rfl
  | _, m :: ms, h => by
    rw [List.any_cons, h.2.sound, Bool.or_false, decide_eq_false_iff_not]
    exact h.1.hd.sound h.1.good

/-- Reading the data of the inputs, as far as it is there. -/
theorem readMetas_at (junk : Bytes) (fuel off : Nat) : ∀ (ms : List ElectrumMeta) {T c : Bytes} {s t : Nat}, MetasAt junk T t s ms → c <+: T.drop t → (s ≤ t ∨ c = []) →
    ∃ ms' t' c', readMetas junk (fuel + 2) (off + s) ms (off + t) (.of c) = some (ms', off + t', .of c') ∧ MetasAt junk T t' s ms' ∧ ms'.length = ms.length ∧
      c' <+: T.drop t' ∧ t' + c'.length = t + c.length ∧ t ≤ t' ∧ (c' = [] ∨ s + 102 * ms.length ≤ t') ∧ t' ≤ max t (s + 102 * ms.length)
  | [], T, c, s, t, _, hc, hs => ⟨[], t, c, rfl, trivial, rfl, hc, rfl, le_refl _, by simpa [or_comm] using hs, le_max_left _ _⟩
  | m :: ms, T, c, s, t, h, hc, hs => by
    obtain ⟨m', t1, c1, a1, a2, a3, a4, a5, a6, a7⟩ := readMeta_at junk fuel off h.1 hc hs
    have hms : MetasAt junk T t1 (s + 102) ms := by
      by_cases hle : t ≤ s + 102
      · exact h.2.early hle (by omega)
      · rw [show t1 = t by omega]
        exact h.2
    obtain ⟨ms', t2, c2, b1, b2, b3, b4, b5, b6, b7, b8⟩ := readMetas_at junk fuel off ms hms a3 a6.symm
    refine ⟨m' :: ms', t2, c2, ?_, ⟨?_, b2⟩, by rw [List.length_cons, List.length_cons, b3], b4, by omega, by omega, ?_, ?_⟩
    · rw [readMetas, a1]
      simp only [Option.bind_eq_bind, Option.bind_some]
      rw [Nat.add_assoc, b1]
      rfl
    · rcases a6 with h6 | h6
      · rw [h6, List.length_nil] at b5
        rw [show t2 = t1 by omega]
        exact a2
      · exact a2.stable h6 (by omega)
    · rw [List.length_cons]
      rcases b7 with h | h
      · exact Or.inl h
      · exact Or.inr (by omega)
    · rw [List.length_cons]
      omega

/-- The state of a segwit document of which `t` bytes behind the outputs have been read; `off` bytes are in front of them, `T` are all bytes behind. -/
structure SegAt (junk : Bytes) (e : ElectrumTx) (off : Nat) (T : Bytes) (t : Nat) : Prop where
  segwit : e.isSegwit = true
  tx : e.tx.status = .done
  first : 6 + e.tx.length + 2 - 4 = off
  metas : MetasAt junk T t 0 e.metas
  lock : e.tx.locktime.toNat = leValue ((T.drop (102 * e.metas.length)).take (min t (102 * e.metas.length + 4) - 102 * e.metas.length))

theorem readSegwit_at (junk : Bytes) (fuel : Nat) {e : ElectrumTx} {off br t : Nat} {T c : Bytes} (h : SegAt junk e off T t) (hp : e.bytesParsed + br = off + t)
    (hb : e.bytesParsed ≤ off + t) (hc : c <+: T.drop t) (ht : t < 102 * e.metas.length + 4) :
    ∃ e' t' c', readSegwit junk (fuel + 2) e br (.of c) = some (e', br + (t' - t), .of c') ∧ SegAt junk e' off T t' ∧ e'.metas.length = e.metas.length ∧
      e'.bytesParsed = off + t' ∧ (∀ x, e.tx.Holds x → e'.tx.Holds { x with locktime := e'.tx.locktime.toNat }) ∧ c' <+: T.drop t' ∧ t' + c'.length = t + c.length ∧
      t ≤ t' ∧ (c' = [] ∨ t' = 102 * e.metas.length + 4) ∧ t' ≤ 102 * e.metas.length + 4 ∧ e'.status = (if t' = 102 * e.metas.length + 4 then .done else e.status) := by
  obtain ⟨h1, h2, h3, h4, h5⟩ := h
  obtain ⟨ms, t1, c1, a1, a2, a3, a4, a5, a6, a7, a8⟩ := readMetas_at junk fuel off e.metas h4 hc (Or.inl (Nat.zero_le _))
  rw [Nat.zero_add] at a7 a8
  obtain ⟨b1, b2, b3, b4, b5⟩ := field a4 (102 * e.metas.length) (102 * e.metas.length + 4) a7.symm
  have hfl := field_length a4 (102 * e.metas.length) (102 * e.metas.length + 4) a7.symm
  unfold readSegwit
  rw [if_pos ⟨h1, h2⟩]
  dsimp only
  rw [h3, hp, show readMetas junk (fuel + 2) off e.metas (off + t) (.of c) = _ from a1]
  simp only [Option.bind_eq_bind, Option.bind_some]
  rw [PStream.readN_of, show off + 102 * e.metas.length + 4 - (off + t1) = 102 * e.metas.length + 4 - t1 by omega]
  dsimp only
  rw [a2.sound]
  generalize hx : c1.take (102 * e.metas.length + 4 - t1) = x at b1 b2 b3 b4 b5 hfl
  generalize ht2 : t1 + x.length = t2 at b1 b2 b3 b4 b5
  rw [if_neg (by decide), show off + t1 + x.length = off + t2 by omega]
  have hlock : (accLE e.tx.locktime (off + t1 - (off + 102 * e.metas.length)) x).toNat =
      leValue ((T.drop (102 * e.metas.length)).take (min t2 (102 * e.metas.length + 4) - 102 * e.metas.length)) := by
    have hst : min t1 (102 * e.metas.length + 4) - 102 * e.metas.length = min t (102 * e.metas.length + 4) - 102 * e.metas.length := by omega
    rw [← b1]
    rcases hfl with h | h
    · rw [h, List.append_nil, hst]
      exact h5
    · rw [show off + t1 - (off + 102 * e.metas.length) = t1 - 102 * e.metas.length by omega, ← h]
      apply accLE_spec
      · rw [hst]; exact h5
      · rw [← List.length_append, b1, List.length_take]
        omega
  have hms : MetasAt junk T t2 0 ms := by
    rcases a7 with h | h
    · rw [h, List.length_nil] at b3
      rw [show t2 = t1 by omega]
      exact a2
    · exact a2.late (by rw [a3]; omega) (by rw [a3]; omega)
  have hpos : ∀ n, off + n = off + 102 * e.metas.length + 4 ↔ n = 102 * e.metas.length + 4 := fun n => by omega
  refine ⟨(({ e with metas := ms, tx := { e.tx with locktime := accLE e.tx.locktime (off + t1 - (off + 102 * e.metas.length)) x } } : ElectrumTx).stop
    (if t2 = 102 * e.metas.length + 4 then .done else e.status) (br + (t2 - t)) (.of [])).1, t2, c1.drop (102 * e.metas.length + 4 - t1), ?_, ⟨?_, ?_, ?_, ?_, ?_⟩, ?_, ?_, ?_, b2, by omega, by omega, ?_, by omega, ?_⟩
  · simp only [hpos]
    unfold stop
    dsimp only
    rw [show off + t2 - e.bytesParsed = br + (t2 - t) by omega]
    rfl
  · exact h1
  · exact h2
  · rw [← h3]
    rfl
  · exact hms
  · show (accLE _ _ _).toNat = _
    rw [hlock]
    show _ = leValue ((T.drop (102 * ms.length)).take (min t2 (102 * ms.length + 4) - 102 * ms.length))
    rw [a3]
  · exact a3
  · show e.bytesParsed + _ = _
    omega
  · intro x hx
    exact ⟨hx.version, hx.ins, hx.outs, rfl⟩
  · rcases b4 with h | h
    · exact Or.inl h
    · exact Or.inr (by omega)
  · rfl

/-! #### The transaction before the witnesses -/

/-- A segwit transaction up to the last output. -/
def preBytes (x : Transaction) : Bytes :=
  leBytes 4 x.version ++ ([0x00, 0x01] ++ (compactSize x.ins.length ++ (x.ins.flatMap inBytes ++ (compactSize x.outs.length ++ x.outs.flatMap outBytes))))

theorem wire_bare {x : Transaction} (h : WireTx x) : WireTx x.bare := by
  refine ⟨h.version, h.locktime, ?_, h.outs, ?_⟩
  · intro i hi
    obtain ⟨j, hj, rfl⟩ := List.mem_map.mp hi
    have := h.ins j hj
    exact ⟨this.hash, this.index, this.script, this.sequence⟩
  · intro i hi
    obtain ⟨j, hj, rfl⟩ := List.mem_map.mp hi
    simp

theorem segwit_bare (x : Transaction) : ∃ w : Bytes, segwitBytes x.bare = preBytes x ++ w ∧ 4 ≤ w.length := by
  refine ⟨x.bare.ins.flatMap (fun i => witnessBytes i.witness) ++ leBytes 4 x.locktime, ?_, by simp⟩
  have hfs : x.bare.ins.flatMap inBytes = x.ins.flatMap inBytes := flatMap_strip x.ins
  have hl : x.bare.ins.length = x.ins.length := List.length_map ..
  unfold segwitBytes preBytes
  rw [hfs, hl]
  simp only [List.append_assoc]
  rfl

/-- A part of it is an unfinished transaction. -/
theorem readTx_pre {x : Transaction} (h : WireTx x) (hi : x.ins.length < 253) (ho : x.outs.length < 253) {p d : Bytes} (hp : p ++ d = preBytes x) :
    Spec.readTx p = .more := by
  obtain ⟨w, h1, h2⟩ := segwit_bare x
  have hl : x.bare.ins.length = x.ins.length := List.length_map ..
  have e := readTx_segwit x.bare (wire_bare h) (by omega) ho []
  rw [List.append_nil, h1, ← hp, List.append_assoc] at e
  cases hr : Spec.readTx p with
  | more => rfl
  | bad => rw [readTx_bad_mono _ hr] at e; cases e
  | ok z r =>
    rw [readTx_mono _ hr] at e
    injection e with e1 e2
    have := congrArg List.length e2
    simp only [List.length_append, List.length_nil] at this
    omega

theorem ctx_pre {x : Transaction} (h : WireTx x) (hi : x.ins.length < 253) (ho : x.outs.length < 253) (r2 : Bytes) :
    Tx.Ctx (preBytes x ++ r2) (leBytes 4 x.version ++ [0, 1, UInt8.ofNat x.ins.length]) true x.ins.length x.version
      (x.ins.flatMap inBytes ++ (compactSize x.outs.length ++ (x.outs.flatMap outBytes ++ r2))) x.bare.ins (UInt8.ofNat x.outs.length) (x.outs.flatMap outBytes ++ r2)
      x.outs r2 := by
  have eo : (UInt8.ofNat x.outs.length).toNat = x.outs.length := by simp; omega
  refine ⟨⟨leBytes 4 x.version, by simp, by rw [leValue_leBytes]; exact Nat.mod_eq_of_lt h.version, by omega, Or.inr ⟨rfl, rfl⟩⟩, ?_, readMany_ins h ho _, ?_⟩
  · unfold preBytes
    rw [compactSize_small hi]
    simp only [List.append_assoc, List.cons_append, List.nil_append]
  · rw [eo]
    exact (codecMany codecOut x.outs.length).complete x.outs r2 ⟨rfl, h.outs⟩

theorem compactSize_extra (n : Nat) : ∃ b r, compactSize n = b :: r ∧ extraBytes b = r.length := by
  unfold compactSize
  split_ifs with h1 h2 h3
  · refine ⟨_, [], rfl, ?_⟩
    unfold extraBytes
    rw [if_pos]
    · rfl
    · rw [UInt8.lt_iff_toNat_lt]
      simp
      omega
  · exact ⟨0xfd, leBytes 2 n, rfl, by rw [length_leBytes]; rfl⟩
  · exact ⟨0xfe, leBytes 4 n, rfl, by rw [length_leBytes]; rfl⟩
  · exact ⟨0xff, leBytes 8 n, rfl, by rw [length_leBytes]; rfl⟩

theorem preBytes_last {x : Transaction} {l : Out} (h : x.outs.getLast? = some l) : (compactSize l.script.length).length + l.script.length < (preBytes x).length := by
  obtain ⟨init, e⟩ := List.getLast?_eq_some_iff.mp h
  unfold preBytes
  rw [e]
  simp only [List.flatMap_append, List.flatMap_cons, List.flatMap_nil, List.append_nil, outBytes, varBytes, List.length_append, length_leBytes]
  omega

/-- A proper part of it is not one of those after which the parser cannot go on, unless it ends in the length of the last script. -/
theorem not_fragile_pre {x : Transaction} (h : WireTx x) (hi : x.ins.length < 253) (ho : x.outs.length < 253)
    {p d : Bytes} (hp : p ++ d = preBytes x) (hd : d ≠ [])
    (hlast : ∀ o, x.outs.getLast? = some o → o.script.length < d.length → o.script.length + (compactSize o.script.length).length ≤ d.length) : ¬ Fragile p := by
  rintro ⟨hdr', n', v', q', is', o', r', f1, f2, f3, f4⟩
  have hx := ctx_pre h hi ho []
  rw [List.append_nil, List.append_nil] at hx
  have hall := hx.all
  rw [← hp, f2, List.append_assoc] at hall
  obtain ⟨e1, -, e3, -, e5⟩ := Hdr.unique hx.head f1 hall
  subst e3
  have hins := hx.ins
  rw [← e5, Tx.readMany_mono codecIn d f3] at hins
  injection hins with i1 i2
  injection i2 with i3 i4
  have i4 : r' ++ d = x.outs.flatMap outBytes := i4
  have eo : o'.toNat = x.outs.length := by rw [i3]; simp; omega
  rw [eo] at f4
  rcases f4 with ⟨-, os, a, b, y, g1, g2, g3, g4, g5, -⟩ | ⟨os, r2, g1, -⟩
  · have hne : x.outs ≠ [] := by intro h0; rw [h0] at g1; simp at g1
    obtain ⟨init, l, hl⟩ : ∃ init l, x.outs = init ++ [l] := ⟨x.outs.dropLast, x.outs.getLast hne, (List.dropLast_append_getLast hne).symm⟩
    have hsm := hlast l (by rw [hl]; simp)
    obtain ⟨cb, cr, hcb, hce⟩ := compactSize_extra l.script.length
    have hil : init.length = os.length := by
      rw [hl, List.length_append, List.length_singleton] at g1
      omega
    have hv : ∀ o ∈ init, ValidOut o := fun o ho => h.outs o (by rw [hl]; simp [ho])
    have e : readMany readOut os.length (x.outs.flatMap outBytes) = .ok os (a ++ b :: y ++ d) := by
      rw [← i4, g2, List.append_assoc]
      exact (codecMany codecOut os.length).complete os _ ⟨rfl, g3⟩
    rw [hl, List.flatMap_append, (codecMany codecOut os.length).complete init _ ⟨hil, hv⟩] at e
    injection e with e6 e7
    simp only [List.flatMap_cons, List.flatMap_nil, List.append_nil, outBytes, varBytes, List.append_assoc] at e7
    obtain ⟨-, e8⟩ := List.append_inj e7 (by rw [g4]; simp)
    rw [hcb] at e8 hsm
    simp only [List.cons_append, List.cons.injEq] at e8
    have e9 := congrArg List.length e8.2
    rw [List.length_append, List.length_append] at e9
    rw [← e8.1, hce] at g5
    rw [List.length_cons] at hsm
    have := hsm (by omega)
    omega
  · have e := Tx.readMany_mono codecOut d g1
    rw [i4] at e
    have e2 := (codecMany codecOut x.outs.length).complete x.outs [] ⟨rfl, h.outs⟩
    rw [List.append_nil, e] at e2
    injection e2 with _ e3
    exact hd (List.append_eq_nil_iff.mp e3).2

/-! #### Witnesses that are refused, as far as they are there -/

theorem parseWitness_empty (i : TxIn) (hi : i.witness = {}) : ∃ w : Witness, Tx.parseWitness i (.of []) = ({ i with witness := w }, 0, .of []) ∧ w.status = .failed := by
  unfold Tx.parseWitness
  rw [hi]
  exact ⟨_, rfl, rfl⟩

theorem parseWitness_some_large : ∀ (ins : List TxIn) (m s : Bytes), (∀ i ∈ ins, i.witness = {}) → m.length ≤ ins.length → (m.length < ins.length → s = []) →
    (∀ b ∈ m, 0xfd ≤ b) → ∃ ins', Tx.parseAll Tx.parseWitness ins (.of (m ++ s)) = (ins', m.length, .of s) ∧
      List.Forall₂ (fun i j => ∃ w : Witness, j = { i with witness := w } ∧ w.status = .failed) ins ins'
  | [], [], s, _, _, _, _ => ⟨[], rfl, .nil⟩
  | [], _ :: _, _, _, h, _, _ => by simp at h
  | i :: ins, [], s, hi, _, hs, _ => by
    have h0 := hs (by simp)
    subst h0
    obtain ⟨w, e1, e2⟩ := parseWitness_empty i (hi i (by simp))
    obtain ⟨ins', e3, e4⟩ := parseWitness_some_large ins [] [] (fun j hj => hi j (by simp [hj])) (by simp) (fun _ => rfl) (by simp)
    refine ⟨{ i with witness := w } :: ins', ?_, .cons ⟨w, rfl, e2⟩ e4⟩
    rw [List.nil_append, parseAll_cons, e1]
    dsimp only
    rw [List.nil_append] at e3
    rw [e3]
    rfl
  | i :: ins, b :: m, s, hi, hl, hs, hm => by
    obtain ⟨w, e1, e2⟩ := Tx.parseWitness_large i b (m ++ s) (by rw [hi i (by simp)]) (hm b (by simp))
    obtain ⟨ins', e3, e4⟩ := parseWitness_some_large ins m s (fun j hj => hi j (by simp [hj])) (by simpa using hl) (fun h => hs (by simpa using h))
      (fun c hc => hm c (by simp [hc]))
    refine ⟨{ i with witness := w } :: ins', ?_, .cons ⟨w, rfl, e2⟩ e4⟩
    rw [List.cons_append, parseAll_cons, e1]
    dsimp only
    rw [e3, List.length_cons, Nat.add_comm]

theorem marker_large {W D : Bytes} {k : ElectrumKey} (hW : W <+: electrumWitness k ++ D) {n : Nat} (h5 : n ≤ 5) : ∀ b ∈ W.take n, (0xfd : UInt8) ≤ b := by
  have h : W.take n <+: [0xfe, 0xff, 0xff, 0xff, 0xff] := by
    unfold electrumWitness at hW
    rw [List.append_assoc] at hW
    exact List.prefix_of_prefix_length_le ((List.take_prefix n W).trans hW) (List.prefix_append _ _) (by simp; omega)
  intro b hb
  exact (by decide : ∀ b ∈ ([0xfe, 0xff, 0xff, 0xff, 0xff] : Bytes), (0xfd : UInt8) ≤ b) b (h.subset hb)

theorem refused_cut {W D : Bytes} {k : ElectrumKey} (hW : W <+: electrumWitness k ++ D) {n : Nat} (h0 : 0 < n) (h5 : n ≤ 5) : Refused n (min n W.length) W := by
  intro ins hi hw
  obtain ⟨js, p1, p2⟩ := parseWitness_some_large ins (W.take n) (W.drop n) hw (by rw [List.length_take]; omega)
    (fun h => List.drop_eq_nil_of_le (by rw [List.length_take] at h; omega)) (marker_large hW h5)
  cases js with
  | nil =>
    have := p2.length_eq
    simp only [List.length_nil] at this
    omega
  | cons j js =>
    rw [List.take_append_drop] at p1
    refine ⟨j, js, ?_, p2.imp ?_, ?_⟩
    · rw [p1, List.length_take]
      by_cases h : n ≤ W.length
      · rw [Nat.min_eq_left h]
      · rw [Nat.min_eq_right (by omega), List.drop_eq_nil_of_le (by omega), List.drop_eq_nil_of_le (le_refl _)]
    · rintro a b ⟨w, h1, h2⟩
      exact ⟨w, h1, by rw [h2]; decide⟩
    · cases p2 with
      | cons h _ => obtain ⟨w, rfl, h2⟩ := h; exact h2

theorem no_witnesses {W D : Bytes} {k : ElectrumKey} (hW : W <+: electrumWitness k ++ D) {n : Nat} (h0 : 0 < n) :
    ∀ ws l, readMany readWitness n W ≠ .ok ws l := by
  intro ws l h
  obtain ⟨n, rfl⟩ : ∃ m, n = m + 1 := ⟨n - 1, by omega⟩
  cases W with
  | nil => rw [readMany_more n (by rfl)] at h; cases h
  | cons b W =>
    have hb := marker_large hW (n := 1) (by omega) b (by simp)
    have : readWitness (b :: W) = .bad := by
      unfold readWitness
      dsimp only
      rw [if_neg]
      rw [UInt8.lt_iff_toNat_lt]
      rw [UInt8.le_iff_toNat_le] at hb
      omega
    rw [readMany_bad n this] at h
    cases h

theorem readWitnesses_refused' {t : Tx} {br n : Nat} {s s' : PStream} {i0 : TxIn} {ins' : List TxIn} (hf : t.segwitFlag = 1)
    (ho : br + t.bytesParsed = t.witOffset) (h : Tx.parseAll Tx.parseWitness t.txIns s = (i0 :: ins', n, s')) (h0 : i0.witness.status = .failed)
    (hu : ∀ i ∈ i0 :: ins', i.witness.status ≠ .ub) :
    t.readWitnesses br s = ({ t with txIns := i0 :: ins', status := .failed, bytesParsed := t.bytesParsed + (br + n) }, br + n, s') := by
  unfold Tx.readWitnesses
  rw [hf, if_pos (by decide), if_pos ho, h]
  dsimp only
  have e := contLoop_stop (f := Tx.parseWitness) (st := fun i : TxIn => i.witness.status) i0 ins' s' (i0, 0, s') (if_neg (by rw [h0]; simp)) (Or.inl h0)
  unfold Tx.contAll
  rw [e]
  dsimp only
  rw [if_neg (by simpa using hu), if_neg (by decide)]
  rfl

end ElectrumTx
end UB
