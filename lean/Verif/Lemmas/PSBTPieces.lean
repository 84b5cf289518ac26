import Verif.Props.PSBTParse

/-
PSBT::from_stream called several times.
-/

namespace UB
open Spec

theorem readVar_prefix {w y d : Bytes} (h : w ++ y = varBytes d) (hd : d.length < 2 ^ 31) (hy : y ≠ []) : readVar w = .more := by
  have hc := readVar_varBytes d [] hd
  rw [List.append_nil, ← h] at hc
  cases e : readVar w with
  | more => rfl
  | bad =>
    rw [readVar_bad_mono y e] at hc
    cases hc
  | ok d' r =>
    rw [readVar_mono y e] at hc
    injection hc with h1 h2
    exact absurd (List.append_eq_nil_iff.mp h2).2 hy

theorem Script.Mid.again {sc : Script} {w : Bytes} (h : sc.Mid w) (hm : readVar w = .more) :
    (sc.fromStream (.of [])).1.Mid w ∧ (sc.fromStream (.of [])).2.1 = 0 ∧ (sc.fromStream (.of [])).2.2 = .of [] := by
  have hf := Script.feed sc w [] (Or.inr h)
  unfold Script.Outcome at hf
  rw [List.append_nil, hm] at hf
  exact hf

theorem Script.ready_more {sc : Script} (h : sc.Ready) {w : Bytes} (hw : w ≠ []) (hm : readVar w = .more) :
    ∃ sc', sc.fromStream (.of w) = (sc', w.length, .of []) ∧ sc'.Mid w := by
  have hf := Script.feed sc [] w (Or.inl ⟨h, rfl, hw⟩)
  unfold Script.Outcome at hf
  rw [List.nil_append, hm] at hf
  generalize sc.fromStream (.of w) = x at hf
  obtain ⟨a, b, c⟩ := x
  obtain ⟨h1, h2, h3⟩ := hf
  dsimp only at h1 h2 h3
  subst h2 h3
  exact ⟨a, rfl, h1⟩

theorem Script.mid_more {sc : Script} {w c : Bytes} (h : sc.Mid w) (hm : readVar (w ++ c) = .more) :
    ∃ sc', sc.fromStream (.of c) = (sc', c.length, .of []) ∧ sc'.Mid (w ++ c) := by
  have hf := Script.feed sc w c (Or.inr h)
  unfold Script.Outcome at hf
  rw [hm] at hf
  generalize sc.fromStream (.of c) = x at hf
  obtain ⟨a, b, c⟩ := x
  obtain ⟨h1, h2, h3⟩ := hf
  dsimp only at h1 h2 h3
  subst h2 h3
  exact ⟨a, rfl, h1⟩

theorem Script.ready_var {sc : Script} (h : sc.Ready) (d r : Bytes) (hd : d.length < 2 ^ 31) :
    ∃ sc', sc.fromStream (.of (varBytes d ++ r)) = (sc', (varBytes d).length, .of r) ∧ sc'.status = .done ∧ sc'.Holds d := by
  have hne : varBytes d ++ r ≠ [] := by
    have := compactSize_length d.length
    intro h0
    have h1 := congrArg List.length h0
    unfold varBytes at h1
    simp only [List.length_append, List.length_nil] at h1
    omega
  have hf := Script.feed sc [] _ (Or.inl ⟨h, rfl, hne⟩)
  unfold Script.Outcome at hf
  rw [List.nil_append, readVar_varBytes d r hd] at hf
  generalize sc.fromStream (.of (varBytes d ++ r)) = x at hf
  obtain ⟨a, b, c⟩ := x
  obtain ⟨h1, h2, -, h3, h4⟩ := hf
  dsimp only at h1 h2 h3 h4
  rw [List.length_append] at h3
  have hb : b = (varBytes d).length := by omega
  subst h4 hb
  exact ⟨a, rfl, h1, h2⟩

theorem Script.mid_var {sc : Script} {w c : Bytes} (h : sc.Mid w) (d r : Bytes) (hd : d.length < 2 ^ 31) (e : w ++ c = varBytes d ++ r) (hw : w.length ≤ (varBytes d).length) :
    ∃ sc', sc.fromStream (.of c) = (sc', (varBytes d).length - w.length, .of r) ∧ sc'.status = .done ∧ sc'.Holds d := by
  have hf := Script.feed sc w c (Or.inr h)
  unfold Script.Outcome at hf
  rw [e, readVar_varBytes d r hd] at hf
  generalize sc.fromStream (.of c) = x at hf
  obtain ⟨a, b, c'⟩ := x
  obtain ⟨h1, h2, -, h3, h4⟩ := hf
  dsimp only at h1 h2 h3 h4
  have hl := congrArg List.length e
  simp only [List.length_append] at hl
  have hb : b = (varBytes d).length - w.length := by omega
  subst h4 hb
  exact ⟨a, rfl, h1, h2⟩

namespace PSBT

theorem loop_empty (junk : Nat → Bytes) (fuel : Nat) (p : PSBT) (br : Nat) : loop junk fuel p br (.of []) = p.finishAll br (.of []) := by
  cases fuel with
  | zero => rfl
  | succ n => unfold loop; rw [if_neg (by simp)]

theorem finishAll_more (p : PSBT) (br : Nat) (s : PStream) (h : p.sec < p.sections) (hs : p.status = .incomplete) :
    p.finishAll br s = ({ p with bytesParsed := p.bytesParsed + br }, br, s) := by
  unfold finishAll
  rw [if_neg (by
    intro h2
    rw [h2.1] at h
    exact absurd (UInt8.lt_iff_toNat_lt.mp h) (Nat.lt_irrefl _))]
  unfold finish
  cases p
  simp_all

/-! ### Pairs and maps that are read completely -/

theorem loop_pairs (junk : Nat → Bytes) : ∀ (qs : List Pair) (fuel : Nat) (p : PSBT) (br : Nat) (tail : Bytes) (pos : Nat) (ms : List InMeta × List OutMeta),
    p.key.Ready → p.value.Ready → 5 < p.lastKeyPos → p.sec < p.sections → (∀ q ∈ qs, GoodPair q) →
    runMap p.tx junk p.sec.toNat qs p.lastKeyPos (p.ins, p.outs) = .ok (some (pos, ms)) →
    ∃ k v, k.Ready ∧ v.Ready ∧ pos = p.lastKeyPos + (qs.flatMap pairBytes).length ∧
      loop junk (fuel + qs.length) p br (.of (qs.flatMap pairBytes ++ tail)) =
        loop junk fuel { p with key := k, value := v, ins := ms.1, outs := ms.2, lastKeyPos := pos } (br + (qs.flatMap pairBytes).length) (.of tail)
  | [], fuel, p, br, tail, pos, ms, hk, hv, hl, hs, hg, hr => by
    unfold runMap at hr
    cases hr
    exact ⟨p.key, p.value, hk, hv, rfl, rfl⟩
  | (k0, v0) :: qs, fuel, p, br, tail, pos, ms, hk, hv, hl, hs, hg, hr => by
    obtain ⟨g1, g2, g3⟩ := hg (k0, v0) (List.mem_cons_self ..)
    dsimp only at g1 g2 g3
    have e0 : ((k0, v0) :: qs).flatMap pairBytes ++ tail = varBytes k0 ++ (varBytes v0 ++ (qs.flatMap pairBytes ++ tail)) := by
      rw [List.flatMap_cons, pairBytes]
      simp only [List.append_assoc]
    have hrd : readVar (((k0, v0) :: qs).flatMap pairBytes ++ tail) = .ok k0 (varBytes v0 ++ (qs.flatMap pairBytes ++ tail)) := by
      rw [e0]; exact readVar_varBytes k0 _ g2
    have hrd2 : readVar (varBytes v0 ++ (qs.flatMap pairBytes ++ tail)) = .ok v0 (qs.flatMap pairBytes ++ tail) := readVar_varBytes v0 _ g3
    have hcne : ((k0, v0) :: qs).flatMap pairBytes ++ tail ≠ [] := by
      intro h
      rw [h] at hrd
      cases hrd
    unfold runMap at hr
    have hro := round_out p (junk p.lastKeyPos) br _ hcne hk hv
    rw [List.length_cons, ← Nat.add_assoc, loop, if_pos ⟨by rw [PStream.avail_of]; simpa using hcne, hs⟩]
    generalize hx : p.round (junk p.lastKeyPos) br (.of (((k0, v0) :: qs).flatMap pairBytes ++ tail)) = x at hro ⊢
    clear hx
    cases hro with
    | delim r k hk' hc => rw [hrd] at hc; cases hc; exact absurd rfl g1
    | pair kb vb r r' k v hk' hv' hc hne hr' res ms' ha h0 =>
      rw [hrd] at hc
      cases hc
      rw [hrd2] at hr'
      cases hr'
      rw [ha, C.bind_ok] at hr
      dsimp only at hr ⊢
      rw [if_neg (by omega)] at hr
      have hsections := sections_eq (p := p) (q := { p with key := k, value := v, ins := ms'.1, outs := ms'.2, lastKeyPos := p.lastKeyPos + ((varBytes k0).length + (varBytes v0).length) }) rfl hl (by dsimp only; omega)
      obtain ⟨k', v', hk2, hv2, hp, he⟩ := loop_pairs junk qs fuel { p with key := k, value := v, ins := ms'.1, outs := ms'.2, lastKeyPos := p.lastKeyPos + ((varBytes k0).length + (varBytes v0).length) }
        (br + ((varBytes k0).length + (varBytes v0).length)) tail pos ms hk' hv' (by dsimp only; omega) (by rw [hsections]; exact hs)
        (fun q hq => hg q (List.mem_cons_of_mem _ hq)) hr
      have hlen : (((k0, v0) :: qs).flatMap pairBytes).length = (varBytes k0).length + (varBytes v0).length + (qs.flatMap pairBytes).length := by
        rw [List.flatMap_cons, pairBytes]
        simp only [List.length_append]
      dsimp only at hp
      refine ⟨k', v', hk2, hv2, by rw [hp, hlen]; omega, ?_⟩
      rw [he, hlen, Nat.add_assoc br]
    | refused kb vb r r' q hc hne hr' ha hq =>
      exfalso
      rw [hrd] at hc
      cases hc
      rw [hrd2] at hr'
      cases hr'
      cases hadd : addM p.tx (junk p.lastKeyPos) p.sec.toNat (p.ins, p.outs) k0 v0 with
      | ub => rw [hadd, C.bind_ub] at hr; cases hr
      | ok y =>
        obtain ⟨res, ms'⟩ := y
        have := ha res ms' hadd
        rw [hadd, C.bind_ok] at hr
        dsimp only at hr
        rw [if_pos this, C.pure_eq] at hr
        cases hr
    | stopped q hc hq _ =>
      rw [hrd] at hc
      rcases hc with hc | ⟨kb, r, hc, hne, h⟩
      · cases hc
      · cases hc
        exact absurd hrd2 (h _ _)
    | more q n hc hs' ht hsec hpos =>
      rw [hrd] at hc
      rcases hc with hc | ⟨kb, r, hc, hne, h⟩
      · cases hc
      · cases hc
        rw [hrd2] at h
        cases h

/-- The number of rounds for maps. -/
def rounds (maps : List (List Pair)) : Nat := (maps.map fun m => m.length + 1).sum

theorem loop_delim (junk : Nat → Bytes) (fuel : Nat) (p : PSBT) (br : Nat) (tail : Bytes) (hk : p.key.Ready) (hv : p.value.Ready) (hs : p.sec < p.sections) :
    ∃ k, k.Ready ∧ loop junk (fuel + 1) p br (.of (0 :: tail)) = loop junk fuel { p with key := k, sec := p.sec + 1, lastKeyPos := p.lastKeyPos + 1 } (br + 1) (.of tail) := by
  have hrd : readVar (0 :: tail) = .ok [] tail := readVar_varBytes [] tail (by simp)
  have hro := round_out p (junk p.lastKeyPos) br _ (List.cons_ne_nil 0 tail) hk hv
  rw [loop, if_pos ⟨by rw [PStream.avail_of]; rfl, hs⟩]
  generalize hx : p.round (junk p.lastKeyPos) br (.of (0 :: tail)) = x at hro ⊢
  clear hx
  cases hro with
  | delim r k hk' hc => rw [hrd] at hc; cases hc; exact ⟨k, hk', rfl⟩
  | pair kb vb r r' k v hk' hv' hc hne hr res ms' ha h0 => rw [hrd] at hc; cases hc; exact absurd rfl hne
  | refused kb vb r r' q hc hne hr ha hq => rw [hrd] at hc; cases hc; exact absurd rfl hne
  | stopped q hc hq _ =>
    rw [hrd] at hc
    rcases hc with hc | ⟨kb, r, hc, hne, _⟩
    · cases hc
    · cases hc; exact absurd rfl hne
  | more q n hc hs' ht hsec hpos =>
    rw [hrd] at hc
    rcases hc with hc | ⟨kb, r, hc, hne, _⟩
    · cases hc
    · cases hc; exact absurd rfl hne

theorem loop_maps (junk : Nat → Bytes) : ∀ (maps : List (List Pair)) (fuel : Nat) (p : PSBT) (br : Nat) (tail : Bytes) (pos : Nat) (ms : List InMeta × List OutMeta),
    p.key.Ready → p.value.Ready → 5 < p.lastKeyPos → p.sec.toNat + maps.length ≤ p.sections.toNat → (∀ m ∈ maps, ∀ q ∈ m, GoodPair q) →
    runMaps p.tx junk maps p.sec.toNat p.lastKeyPos (p.ins, p.outs) = .ok (some (pos, ms)) →
    ∃ k v, k.Ready ∧ v.Ready ∧ pos = p.lastKeyPos + (mapsBytes maps).length ∧
      loop junk (fuel + rounds maps) p br (.of (mapsBytes maps ++ tail)) =
        loop junk fuel { p with key := k, value := v, ins := ms.1, outs := ms.2, lastKeyPos := pos, sec := p.sec + UInt8.ofNat maps.length } (br + (mapsBytes maps).length) (.of tail)
  | [], fuel, p, br, tail, pos, ms, hk, hv, hl, hs, hg, hr => by
    unfold runMaps at hr
    cases hr
    refine ⟨p.key, p.value, hk, hv, rfl, ?_⟩
    have : p.sec + UInt8.ofNat ([] : List (List Pair)).length = p.sec := by simp
    rw [this]
    rfl
  | m :: maps, fuel, p, br, tail, pos, ms, hk, hv, hl, hs, hg, hr => by
    rw [List.length_cons] at hs
    have hlt : p.sec < p.sections := by rw [UInt8.lt_iff_toNat_lt]; omega
    unfold runMaps at hr
    cases hrm : runMap p.tx junk p.sec.toNat m p.lastKeyPos (p.ins, p.outs) with
    | ub => rw [hrm, C.bind_ub] at hr; cases hr
    | ok x =>
      cases x with
      | none => rw [hrm, C.bind_ok] at hr; dsimp only at hr; cases hr
      | some y =>
        obtain ⟨pos1, ms1⟩ := y
        rw [hrm, C.bind_ok] at hr
        dsimp only at hr
        have e0 : mapsBytes (m :: maps) ++ tail = m.flatMap pairBytes ++ (0 :: (mapsBytes maps ++ tail)) := by
          unfold mapsBytes mapBytes
          rw [List.flatMap_cons]
          simp only [List.append_assoc, List.cons_append, List.nil_append]
        have el : (mapsBytes (m :: maps)).length = (m.flatMap pairBytes).length + 1 + (mapsBytes maps).length := by
          unfold mapsBytes mapBytes
          rw [List.flatMap_cons]
          simp only [List.length_append, List.length_singleton]
        have er : fuel + rounds (m :: maps) = (fuel + rounds maps + 1) + m.length := by
          unfold rounds
          rw [List.map_cons, List.sum_cons]
          omega
        obtain ⟨k, v, hk1, hv1, hp1, he1⟩ := loop_pairs junk m (fuel + rounds maps + 1) p br (0 :: (mapsBytes maps ++ tail)) pos1 ms1 hk hv hl hlt (hg m (List.mem_cons_self ..)) hrm
        rw [e0, er, he1]
        have hsec1 := sections_eq (p := p) (q := { p with key := k, value := v, ins := ms1.1, outs := ms1.2, lastKeyPos := pos1 }) rfl hl (by dsimp only; omega)
        obtain ⟨k2, hk2, he2⟩ := loop_delim junk (fuel + rounds maps) { p with key := k, value := v, ins := ms1.1, outs := ms1.2, lastKeyPos := pos1 }
          (br + (m.flatMap pairBytes).length) (mapsBytes maps ++ tail) hk1 hv1 (by rw [hsec1]; exact hlt)
        rw [he2]
        dsimp only
        have hsec : (p.sec + 1).toNat = p.sec.toNat + 1 := by
          rw [UInt8.toNat_add]
          have := p.sections.toNat_lt
          have h1 : (1 : UInt8).toNat = 1 := rfl
          omega
        have hsec2 := sections_eq (p := p) (q := { p with key := k2, value := v, ins := ms1.1, outs := ms1.2, lastKeyPos := pos1 + 1, sec := p.sec + 1 }) rfl hl (by dsimp only; omega)
        obtain ⟨k3, v3, hk3, hv3, hp3, he3⟩ := loop_maps junk maps fuel { p with key := k2, value := v, ins := ms1.1, outs := ms1.2, lastKeyPos := pos1 + 1, sec := p.sec + 1 }
          (br + (m.flatMap pairBytes).length + 1) tail pos ms hk2 hv1 (by dsimp only; omega) (by rw [hsec2]; dsimp only; omega) (fun m hm => hg m (List.mem_cons_of_mem _ hm))
          (by dsimp only; rw [hsec]; exact hr)
        dsimp only at hp3
        refine ⟨k3, v3, hk3, hv3, by rw [hp3, hp1, el]; omega, ?_⟩
        rw [he3, el]
        have : p.sec + 1 + UInt8.ofNat maps.length = p.sec + UInt8.ofNat (m :: maps).length := by
          apply UInt8.toNat_inj.mp
          simp only [UInt8.toNat_add, UInt8.toNat_ofNat', List.length_cons]
          have h1 : (1 : UInt8).toNat = 1 := rfl
          omega
        dsimp only
        rw [this]
        congr 1
        omega

/-! ### Maps taken apart -/

theorem runMap_append (tx : Tx) (junk : Nat → Bytes) (sec : Nat) : ∀ (a b : List Pair) (pos : Nat) (ms : List InMeta × List OutMeta) (r : Nat × List InMeta × List OutMeta),
    runMap tx junk sec (a ++ b) pos ms = .ok (some r) →
    ∃ pos1 ms1, runMap tx junk sec a pos ms = .ok (some (pos1, ms1)) ∧ runMap tx junk sec b pos1 ms1 = .ok (some r)
  | [], b, pos, ms, r, h => ⟨pos, ms, rfl, h⟩
  | (k, v) :: a, b, pos, ms, r, h => by
    rw [List.cons_append] at h
    rw [runMap] at h
    simp only [runMap.eq_2]
    cases ha : addM tx (junk pos) sec ms k v with
    | ub => rw [ha, C.bind_ub] at h; cases h
    | ok x =>
      obtain ⟨res, ms'⟩ := x
      rw [ha, C.bind_ok] at h
      rw [C.bind_ok]
      dsimp only at h ⊢
      by_cases h0 : res < 0
      · rw [if_pos h0] at h; cases h
      · rw [if_neg h0] at h ⊢
        exact runMap_append tx junk sec a b _ _ r h

theorem runMaps_append (tx : Tx) (junk : Nat → Bytes) : ∀ (a b : List (List Pair)) (sec pos : Nat) (ms : List InMeta × List OutMeta) (r : Nat × List InMeta × List OutMeta),
    runMaps tx junk (a ++ b) sec pos ms = .ok (some r) →
    ∃ pos1 ms1, runMaps tx junk a sec pos ms = .ok (some (pos1, ms1)) ∧ runMaps tx junk b (sec + a.length) pos1 ms1 = .ok (some r)
  | [], b, sec, pos, ms, r, h => ⟨pos, ms, rfl, h⟩
  | m :: a, b, sec, pos, ms, r, h => by
    rw [List.cons_append] at h
    rw [runMaps] at h
    simp only [runMaps.eq_2]
    cases hm : runMap tx junk sec m pos ms with
    | ub => rw [hm, C.bind_ub] at h; cases h
    | ok x =>
      rw [hm, C.bind_ok] at h
      rw [C.bind_ok]
      cases x with
      | none => dsimp only at h; cases h
      | some y =>
        obtain ⟨pos1, ms1⟩ := y
        dsimp only at h ⊢
        obtain ⟨pos2, ms2, h1, h2⟩ := runMaps_append tx junk a b _ _ _ r h
        refine ⟨pos2, ms2, h1, ?_⟩
        rw [List.length_cons, show sec + (a.length + 1) = sec + 1 + a.length by omega]
        exact h2

theorem runMaps_split (tx : Tx) (junk : Nat → Bytes) (a b : List Pair) (post : List (List Pair)) (sec pos : Nat) (ms : List InMeta × List OutMeta)
    (r : Nat × List InMeta × List OutMeta) (h : runMaps tx junk ((a ++ b) :: post) sec pos ms = .ok (some r)) :
    ∃ pos1 ms1, runMap tx junk sec a pos ms = .ok (some (pos1, ms1)) ∧ runMaps tx junk (b :: post) sec pos1 ms1 = .ok (some r) := by
  unfold runMaps at h
  cases hm : runMap tx junk sec (a ++ b) pos ms with
  | ub => rw [hm, C.bind_ub] at h; cases h
  | ok x =>
    rw [hm, C.bind_ok] at h
    cases x with
    | none => dsimp only at h; cases h
    | some y =>
      obtain ⟨pos1, ms1, h1, h2⟩ := runMap_append tx junk sec a b pos ms y hm
      refine ⟨pos1, ms1, h1, ?_⟩
      unfold runMaps
      rw [h2, C.bind_ok]
      exact h

/-! ### The first call -/

/-- A pair of which the value is not complete yet. -/
theorem round_mid (p : PSBT) (junk : Bytes) (br : Nat) (hk : p.key.Ready) (hv : p.value.Ready) (k w : Bytes) (hk0 : k ≠ []) (hkl : k.length < 2 ^ 31) (hw : w ≠ [])
    (hm : readVar w = .more) : ∃ k' v', k'.Ready ∧ v'.Mid w ∧
      p.round junk br (.of (varBytes k ++ w)) = (({ p with key := k', value := v' }, br + (varBytes k ++ w).length, .of []), false) := by
  obtain ⟨k', e1, h1, h2⟩ := Script.ready_var hk k w hkl
  obtain ⟨v1, e2, h3⟩ := Script.ready_more hv hw hm
  obtain ⟨h4, h5, h6⟩ := h3.again hm
  refine ⟨k', (v1.fromStream (.of [])).1, script_ready_holds k' k h1 h2, h4, ?_⟩
  unfold round
  rw [if_pos ⟨hk.1, hv.1⟩]
  unfold parseKey
  rw [e1]
  dsimp only
  rw [if_neg (fun h => hk0 ((Script.length_one h2 (by omega)).mp h.2)), if_pos h1]
  unfold parseValue
  dsimp only
  rw [e2]
  dsimp only
  have hst := h3.status
  unfold roundRetry
  dsimp only
  rw [if_neg (by rw [hst, h1]; simp), if_neg (by rw [hst, h1]; simp), if_neg (show ¬ k'.status = .incomplete by rw [h1]; simp)]
  dsimp only
  rw [if_pos hst]
  unfold parseValue
  dsimp only
  unfold roundAdd
  dsimp only
  have := h4.status
  rw [if_neg (by rw [this, h1]; simp), if_neg (by rw [this]; simp), h6, h5, List.length_append, Nat.add_zero, Nat.add_assoc]

/-- The pieces into which a pair is cut by the end of the first piece: nothing yet, or the key and a part of the value. -/
def CutAt (q : Pair) (x y : Bytes) : Prop :=
  (x = [] ∧ y = pairBytes q) ∨ ∃ w, w ≠ [] ∧ y ≠ [] ∧ w ++ y = varBytes q.2 ∧ x = varBytes q.1 ++ w

/-- The object between the two calls. -/
structure Waiting (p q : PSBT) (q0 : Pair) (x : Bytes) : Prop where
  status : q.status = .incomplete
  tx : q.tx = p.tx
  ins : q.ins = p.ins
  outs : q.outs = p.outs
  sec : q.sec = p.sec
  pos : q.lastKeyPos = p.lastKeyPos
  key : q.key.Ready
  value : (x = [] ∧ q.value.Ready) ∨ ∃ w, w ≠ [] ∧ x = varBytes q0.1 ++ w ∧ q.value.Mid w

/-- A pair that can be read; its key may be empty if nothing of it has been read yet. -/
def Droppable (q0 : Pair) (x : Bytes) : Prop := (x ≠ [] → q0.1 ≠ []) ∧ q0.1.length < 2 ^ 31 ∧ q0.2.length < 2 ^ 31

theorem loop_cut (junk : Nat → Bytes) (fuel : Nat) (p : PSBT) (br : Nat) (hk : p.key.Ready) (hv : p.value.Ready) (hst : p.status = .incomplete) (hl : 5 < p.lastKeyPos)
    (hs : p.sec < p.sections) (q0 : Pair) {x y : Bytes} (hg : Droppable q0 x) (hc : CutAt q0 x y) :
    ∃ q, loop junk (fuel + 1) p br (.of x) = (q, br + x.length, .of []) ∧ Waiting p q q0 x ∧ q.bytesParsed = p.bytesParsed + (br + x.length) := by
  rcases hc with ⟨rfl, -⟩ | ⟨w, hw, hy, e, rfl⟩
  · rw [loop_empty, finishAll_more p br _ hs hst]
    exact ⟨_, rfl, ⟨hst, rfl, rfl, rfl, rfl, rfl, hk, Or.inl ⟨rfl, hv⟩⟩, rfl⟩
  · obtain ⟨k', v', h1, h2, h3⟩ := round_mid p (junk p.lastKeyPos) br hk hv q0.1 w (hg.1 fun h => hw (List.append_eq_nil_iff.mp h).2) hg.2.1 hw (readVar_prefix e hg.2.2 hy)
    have hne : varBytes q0.1 ++ w ≠ [] := by
      intro h
      exact hw (List.append_eq_nil_iff.mp h).2
    have hsec := sections_eq (p := p) (q := { p with key := k', value := v' }) rfl hl hl
    rw [loop, if_pos ⟨by rw [PStream.avail_of]; simpa using hne, hs⟩, h3]
    dsimp only
    have hfin := finishAll_more { p with key := k', value := v' } (br + (varBytes q0.1 ++ w).length) (.of []) (by rw [hsec]; exact hs) hst
    rw [loop_empty, hfin]
    exact ⟨_, rfl, ⟨hst, rfl, rfl, rfl, rfl, rfl, h1, Or.inr ⟨w, hw, rfl, h2⟩⟩, rfl⟩

/-! ### The second call -/

theorem fromStream_again (junk : Nat → Bytes) (q : PSBT) (hst : q.status = .incomplete) (hb : 5 ≤ q.bytesParsed) (c : Bytes) :
    fromStream junk q (.of c) = readGlobal junk q 0 (.of c) := by
  unfold fromStream
  rw [if_neg (by rw [hst]; simp), if_neg (by rw [hst]; simp)]
  have hq : q.start = q := by
    unfold start
    rw [if_neg (by rw [hst]; simp)]
    cases q
    simp_all
  dsimp only
  rw [hq, List.drop_eq_nil_of_le (by exact hb)]
  rfl

theorem again_done (junk : Nat → Bytes) (q : PSBT) (hl : q.lastKeyPos ≠ 5) (hk : q.key.status = .done) (hv : q.value.status = .done) (br : Nat) (c : Bytes) :
    globalKey junk q br (.of c) = loop junk (2 * c.length + 2) q br (.of c) := by
  unfold globalKey
  rw [if_neg (by rw [hk]; simp)]
  dsimp only
  rw [if_neg (by rw [hk]; simp), if_neg (by rw [hk]; simp)]
  unfold globalValue
  rw [if_neg (by rw [hv]; simp)]
  dsimp only
  rw [if_neg (by rw [hv]; simp), if_neg (by rw [hv]; simp)]
  unfold afterGlobal
  rw [if_neg (fun h => hl h.1)]

/-- The second call completes the pair, but nobody looks at it: the loop goes on with the next one. -/
theorem second_call (junk : Nat → Bytes) {p q : PSBT} {q0 : Pair} {x y : Bytes} (hw : Waiting p q q0 x) (hc : CutAt q0 x y) (hg : Droppable q0 x) (hl : 5 < p.lastKeyPos)
    (hb : q.bytesParsed = p.lastKeyPos + x.length) (r : Bytes) :
    ∃ k v, k.Ready ∧ v.Ready ∧ fromStream junk q (.of (y ++ r)) =
      loop junk (2 * r.length + 2) { p with status := .incomplete, bytesParsed := q.bytesParsed, key := k, value := v } y.length (.of r) := by
  rw [fromStream_again junk q hw.status (by omega)]
  unfold readGlobal
  rcases hw.value with ⟨rfl, hv⟩ | ⟨w, hwne, rfl, hm⟩
  · have hy : y = pairBytes q0 := by
      rcases hc with ⟨-, h⟩ | ⟨w, -, -, -, h⟩
      · exact h
      · exfalso
        have := congrArg List.length h
        have h2 := compactSize_length q0.1.length
        unfold varBytes at this
        simp only [List.length_nil, List.length_append] at this
        omega
    subst hy
    rw [if_pos (by rw [hb, hw.pos]; simp)]
    obtain ⟨k', e1, h1, h2⟩ := Script.ready_var hw.key q0.1 (varBytes q0.2 ++ r) hg.2.1
    obtain ⟨v', e2, h3, h4⟩ := Script.ready_var hv q0.2 r hg.2.2
    unfold parseKey
    have e0 : pairBytes q0 ++ r = varBytes q0.1 ++ (varBytes q0.2 ++ r) := by unfold pairBytes; rw [List.append_assoc]
    rw [e0, e1]
    dsimp only
    unfold parseValue
    dsimp only
    rw [e2]
    dsimp only
    rw [again_done junk _ (by dsimp only; rw [hw.pos]; omega) h1 h3]
    refine ⟨k', v', script_ready_holds _ _ h1 h2, script_ready_holds _ _ h3 h4, ?_⟩
    have : (pairBytes q0).length = 0 + (varBytes q0.1).length + (varBytes q0.2).length := by
      unfold pairBytes; rw [List.length_append]; omega
    rw [this]
    congr 1
    have a1 := hw.status
    have a2 := hw.tx
    have a3 := hw.ins
    have a4 := hw.outs
    have a5 := hw.sec
    have a6 := hw.pos
    cases q
    cases p
    simp_all
  · have hy : y ≠ [] ∧ w ++ y = varBytes q0.2 := by
      rcases hc with ⟨h, -⟩ | ⟨w', h1, h2, h3, h4⟩
      · exact absurd (List.append_eq_nil_iff.mp h).2 hwne
      · have := List.append_cancel_left h4
        subst this
        exact ⟨h2, h3⟩
    have hwl : 0 < (varBytes q0.1 ++ w).length := by
      rw [List.length_append]
      have := List.length_pos_of_ne_nil hwne
      omega
    rw [if_neg (by rw [hb, hw.pos]; omega)]
    have hlen := congrArg List.length hy.2
    rw [List.length_append] at hlen
    obtain ⟨v', e2, h3, h4⟩ := Script.mid_var (c := y ++ r) hm q0.2 r hg.2.2 (by rw [← List.append_assoc, hy.2]) (by omega)
    have hkd := hw.key.1
    unfold globalKey
    rw [if_neg (by rw [hkd]; simp)]
    dsimp only
    rw [if_neg (by rw [hkd]; simp), if_neg (by rw [hkd]; simp)]
    unfold globalValue
    rw [if_pos ⟨by rw [PStream.avail_of]; simp [hy.1], hm.status⟩]
    unfold parseValue
    rw [e2]
    dsimp only
    rw [if_neg (by rw [h3]; simp), if_neg (by rw [h3]; simp)]
    unfold afterGlobal
    rw [if_neg (by dsimp only; rw [hw.pos]; omega)]
    refine ⟨q.key, v', hw.key, script_ready_holds _ _ h3 h4, ?_⟩
    have : y.length = 0 + ((varBytes q0.2).length - w.length) := by omega
    rw [this]
    show loop junk (2 * r.length + 2) _ _ _ = _
    congr 1
    have a1 := hw.status
    have a2 := hw.tx
    have a3 := hw.ins
    have a4 := hw.outs
    have a5 := hw.sec
    have a6 := hw.pos
    cases q
    cases p
    simp_all

/-! ### Both calls -/

/-- The prefix and the transaction. -/
theorem read_tx (junk : Nat → Bytes) {p : PSBT} (hp : p.Clean) {vb : Bytes} (hv : vb.length < 2 ^ 31) {t : Tx}
    (ht : t = (p.txStart.fromStream (.of (vb.drop (misread vb.length)))).1) (hd : t.status = .done) (r : Bytes) :
    ∃ k v, k.Ready ∧ v.Ready ∧ fromStream junk p (.of (psbtMagic ++ pairBytes ([0], vb) ++ r)) =
      loop junk (2 * r.length + 2) (p.afterTx t k v vb) (5 + (2 + (varBytes vb).length)) (.of r) := by
  rw [fromStream_eq junk hp]
  obtain ⟨c, hc⟩ : ∃ c, c = pairBytes ([0], vb) ++ r := ⟨_, rfl⟩
  have hbs : psbtMagic ++ pairBytes ([0], vb) ++ r = magic ++ c := by
    rw [hc]; simp only [List.append_assoc]; rfl
  rw [hbs]
  have hm : readMagic magic 0 (.of (magic ++ c)) = (true, 5, .of c) := by
    simp [magic, readMagic, PStream.avail, PStream.readByte]
  rw [hm]
  dsimp only
  rcases readGlobal_out junk p hp c with ⟨vb', r', k, v, e1, e2, e3, e4, e5, e6⟩ | ⟨-, e2⟩
  · have hvr : vb' = vb ∧ r' = r := by
      rw [hc] at e1
      unfold pairBytes at e1
      simp only [List.append_assoc] at e1
      have h1 := List.append_cancel_left e1
      have h2 := readVar_varBytes vb r hv
      rw [h1, readVar_varBytes vb' r' e2] at h2
      cases h2; exact ⟨rfl, rfl⟩
    obtain ⟨rfl, rfl⟩ := hvr
    rw [e6, ← ht]
    exact ⟨k, v, e3, e4, rfl⟩
  · exfalso
    apply e2
    exact ⟨vb, _, hc, hv, by rw [← ht]; exact hd⟩

theorem rounds_le : ∀ maps : List (List Pair), rounds maps ≤ (mapsBytes maps).length
  | [] => Nat.le_refl _
  | m :: maps => by
    have h1 := rounds_le maps
    have h2 : m.length ≤ (m.flatMap pairBytes).length := pairs_le m
    unfold rounds mapsBytes mapBytes at *
    rw [List.map_cons, List.sum_cons, List.flatMap_cons, List.length_append, List.length_append, List.length_singleton]
    omega
where
  pairs_le : ∀ m : List Pair, m.length ≤ (m.flatMap pairBytes).length
    | [] => Nat.le_refl _
    | q :: m => by
      have h1 := pairs_le m
      have h2 := compactSize_length q.1.length
      rw [List.flatMap_cons, List.length_append, List.length_cons]
      unfold pairBytes varBytes at *
      simp only [List.length_append] at *
      omega

/-- The object as it was before the pair that is cut. -/
structure Before (junk : Nat → Bytes) (P : PSBT) (t : Tx) (ms : List InMeta × List OutMeta) (n : Nat) (rem : List (List Pair)) : Prop where
  tx : P.tx = t
  pos : 5 < P.lastKeyPos
  sec : P.sec = UInt8.ofNat n
  small : n < 256
  sections : P.sections = UInt8.ofNat (1 + t.txIns.length + t.txOuts.length)
  run : ∃ pos, runMaps t junk rem n P.lastKeyPos (P.ins, P.outs) = .ok (some (pos, ms))

theorem first_call (junk : Nat → Bytes) {p : PSBT} (hp : p.Clean) {vb : Bytes} {pre post : List (List Pair)} {qs1 qs2 : List Pair} {t : Tx}
    {ms : List InMeta × List OutMeta} (h : Accepts junk p vb (pre ++ (qs1 ++ qs2) :: post) t ms) {q0 : Pair} {x y : Bytes} (hg : Droppable q0 x) (hc : CutAt q0 x y)
    {q : PSBT}
    (hq : q = (fromStream junk p (.of (psbtMagic ++ pairBytes ([0], vb) ++ (mapsBytes pre ++ (qs1.flatMap pairBytes ++ x))))).1) :
    ∃ P, Before junk P t ms pre.length (qs2 :: post) ∧ Waiting P q q0 x ∧ q.bytesParsed = P.lastKeyPos + x.length ∧
      (fromStream junk p (.of (psbtMagic ++ pairBytes ([0], vb) ++ (mapsBytes pre ++ (qs1.flatMap pairBytes ++ x))))).2.1 =
        (psbtMagic ++ pairBytes ([0], vb) ++ (mapsBytes pre ++ (qs1.flatMap pairBytes ++ x))).length := by
  obtain ⟨k, v, hk, hv, e⟩ := read_tx junk hp h.size h.tx h.done (mapsBytes pre ++ (qs1.flatMap pairBytes ++ x))
  rw [e] at hq ⊢
  obtain ⟨pos, hrun⟩ := h.run
  obtain ⟨pos1, ms1, hr1, hr2⟩ := runMaps_append t junk pre _ 0 _ _ _ hrun
  obtain ⟨pos2, ms2, hr3, hr4⟩ := runMaps_split t junk qs1 qs2 post _ _ _ _ hr2
  have hsec := sections_afterTx p t k v vb
  have hls := h.sections
  rw [List.length_append, List.length_cons] at hls
  rw [Nat.zero_add] at hr3 hr4
  have hgp : ∀ m ∈ pre, ∀ q ∈ m, GoodPair q := fun m hm => h.good m (List.mem_append_left _ hm)
  have hg12 : ∀ q ∈ qs1 ++ qs2, GoodPair q := h.good _ (List.mem_append_right _ (List.mem_cons_self ..))
  have hl7 : 5 < (p.afterTx t k v vb).lastKeyPos := by unfold afterTx; dsimp only; omega
  have hlb : (p.afterTx t k v vb).lastKeyPos = 5 + (2 + (varBytes vb).length) := rfl
  -- the number of rounds
  obtain ⟨f, hf⟩ : ∃ f, 2 * (mapsBytes pre ++ (qs1.flatMap pairBytes ++ x)).length + 2 = f + 1 + qs1.length + rounds pre := by
    have h1 := rounds_le pre
    have h2 := rounds_le.pairs_le qs1
    refine ⟨2 * (mapsBytes pre ++ (qs1.flatMap pairBytes ++ x)).length + 2 - 1 - qs1.length - rounds pre, ?_⟩
    simp only [List.length_append]
    omega
  rw [hf] at hq ⊢
  -- the maps before
  obtain ⟨k1, v1, hk1, hv1, hp1, e1⟩ := loop_maps junk pre (f + 1 + qs1.length) (p.afterTx t k v vb) (5 + (2 + (varBytes vb).length)) (qs1.flatMap pairBytes ++ x) pos1 ms1 hk hv hl7
    (by rw [hsec]; show 0 + pre.length ≤ _; omega) hgp hr1
  rw [e1] at hq ⊢
  have hpl : pre.length < 256 := by
    have := UInt8.toNat_lt (UInt8.ofNat (1 + t.txIns.length + t.txOuts.length))
    omega
  have hs1 : ((p.afterTx t k v vb).sec + UInt8.ofNat pre.length) = UInt8.ofNat pre.length := by
    show (0 : UInt8) + _ = _
    rw [UInt8.zero_add]
  rw [hs1] at hq ⊢
  have htn : (UInt8.ofNat pre.length).toNat = pre.length := by rw [UInt8.toNat_ofNat']; omega
  -- the pairs before
  have hsec1 : ({ p.afterTx t k v vb with key := k1, value := v1, ins := ms1.1, outs := ms1.2, lastKeyPos := pos1, sec := UInt8.ofNat pre.length } : PSBT).sections =
      UInt8.ofNat (1 + t.txIns.length + t.txOuts.length) := by rw [← hsec]; exact sections_eq rfl hl7 (by dsimp only; omega)
  obtain ⟨k2, v2, hk2, hv2, hp2, e2⟩ := loop_pairs junk qs1 (f + 1) { p.afterTx t k v vb with key := k1, value := v1, ins := ms1.1, outs := ms1.2, lastKeyPos := pos1, sec := UInt8.ofNat pre.length }
    (5 + (2 + (varBytes vb).length) + (mapsBytes pre).length) x pos2 ms2 hk1 hv1 (by dsimp only; omega) (by rw [hsec1, UInt8.lt_iff_toNat_lt]; dsimp only; omega)
    (fun q hq => hg12 q (List.mem_append_left _ hq)) (by dsimp only; rw [htn]; exact hr3)
  rw [e2] at hq ⊢
  -- the cut
  generalize hP : ({ p.afterTx t k v vb with key := k2, value := v2, ins := ms2.1, outs := ms2.2, lastKeyPos := pos2, sec := UInt8.ofNat pre.length } : PSBT) = P at hq ⊢
  have hPl : P.lastKeyPos = pos2 := by rw [← hP]
  have hPk : P.key.Ready := by rw [← hP]; exact hk2
  have hPv : P.value.Ready := by rw [← hP]; exact hv2
  have hPst : P.status = .incomplete := by rw [← hP]; rfl
  have hPb : P.bytesParsed = 0 := by rw [← hP]; rfl
  have hPt : P.tx = t := by rw [← hP]; rfl
  have hPs : P.sec = UInt8.ofNat pre.length := by rw [← hP]
  have hPm : (P.ins, P.outs) = ms2 := by rw [← hP]
  have hPsec : P.sections = UInt8.ofNat (1 + t.txIns.length + t.txOuts.length) := by
    rw [← hsec]; exact sections_eq (by rw [hPt]; rfl) hl7 (by dsimp only at hp2; omega)
  dsimp only at hp2
  obtain ⟨Q, e3, hw, hb⟩ := loop_cut junk f P _ hPk hPv hPst (by omega) (by rw [hPsec, hPs, UInt8.lt_iff_toNat_lt]; omega) q0 hg hc
  rw [e3] at hq ⊢
  dsimp only at hq ⊢
  subst hq
  rw [hPb] at hb
  refine ⟨P, ⟨hPt, by omega, hPs, hpl, hPsec, pos, by rw [hPl, hPm]; exact hr4⟩, hw, by rw [hb]; omega, ?_⟩
  simp only [List.length_append, pairBytes, show (varBytes [0]).length = 2 from rfl, show psbtMagic.length = 5 from rfl]
  omega

/-- A pair that is cut by the end of the first piece is lost. -/
theorem pair_lost (junk : Nat → Bytes) {p : PSBT} (hp : p.Clean) {vb : Bytes} {pre post : List (List Pair)} {qs1 qs2 : List Pair} {t : Tx}
    {ms : List InMeta × List OutMeta} (h : Accepts junk p vb (pre ++ (qs1 ++ qs2) :: post) t ms) {q0 : Pair} {x y : Bytes} (hg : Droppable q0 x) (hc : CutAt q0 x y)
    (rest : Bytes) {q : PSBT}
    (hq : q = (fromStream junk p (.of (psbtMagic ++ pairBytes ([0], vb) ++ (mapsBytes pre ++ (qs1.flatMap pairBytes ++ x))))).1) :
    q.status = .incomplete ∧ Parsed (fromStream junk q (.of (y ++ (mapsBytes (qs2 :: post) ++ rest)))) t ms (y ++ mapsBytes (qs2 :: post)).length rest := by
  obtain ⟨P, hB, hw, hb, -⟩ := first_call junk hp h hg hc hq
  have hls := h.sections
  rw [List.length_append, List.length_cons] at hls
  have hg12 : ∀ q ∈ qs1 ++ qs2, GoodPair q := h.good _ (List.mem_append_right _ (List.mem_cons_self ..))
  have hP5 := hB.pos
  have hPsec := hB.sections
  have hPs := hB.sec
  have hPt := hB.tx
  have hpl := hB.small
  have htn : (UInt8.ofNat pre.length).toNat = pre.length := by rw [UInt8.toNat_ofNat']; omega
  obtain ⟨pos, hr4⟩ := hB.run
  refine ⟨hw.status, ?_⟩
  obtain ⟨k3, v3, hk3, hv3, e4⟩ := second_call junk hw hc hg hP5 hb (mapsBytes (qs2 :: post) ++ rest)
  rw [e4]
  have hQsec : ({ P with status := .incomplete, bytesParsed := q.bytesParsed, key := k3, value := v3 } : PSBT).sections =
      UInt8.ofNat (1 + t.txIns.length + t.txOuts.length) := by rw [← hPsec]; exact sections_eq rfl (by omega) (by dsimp only; omega)
  have l5 := loop_complete junk (2 * (mapsBytes (qs2 :: post) ++ rest).length + 2) { P with status := .incomplete, bytesParsed := q.bytesParsed, key := k3, value := v3 } y.length
    (qs2 :: post) rest pos ms hk3 hv3 rfl (by dsimp only; omega) (by
      rw [hQsec, gt_iff_lt, UInt8.lt_iff_toNat_lt, ← h.sections]; exact h.pos)
    (by rw [hQsec]; dsimp only; rw [hPs, htn, List.length_cons]; omega)
    (by
      intro m hm
      rcases List.mem_cons.mp hm with rfl | hm
      · exact fun q hq => hg12 q (List.mem_append_right _ hq)
      · exact h.good m (List.mem_append_right _ (List.mem_cons_of_mem _ hm)))
    (by rw [List.length_append]; omega) (by dsimp only; rw [hPs, htn, hPt]; exact hr4)
  refine ⟨l5.status, by rw [l5.tx]; exact hPt, l5.ins, l5.outs, l5.key, l5.value, ?_, l5.stream⟩
  have h7 := l5.read
  simp only [List.length_append] at h7 ⊢
  omega

/-! ### Cuts inside the transaction -/

/-- The key of the transaction has been read, and the part `w` of its value. -/
def MidTx (p q : PSBT) (w : Bytes) : Prop :=
  ∃ k v, k.status = .done ∧ k.Holds [0] ∧ v.Mid w ∧ q = { p.start with key := k, value := v, bytesParsed := 7 + w.length }

theorem loop_start (junk : Nat → Bytes) (fuel : Nat) {p : PSBT} (hp : p.lastKeyPos = 5) (hs : p.status = .incomplete) (br : Nat) (s : PStream) :
    loop junk fuel p br s = ({ p with bytesParsed := p.bytesParsed + br }, br, s) := by
  have h0 : p.sections = 0 := by unfold sections; rw [if_neg (by omega)]
  have : loop junk fuel p br s = p.finishAll br s := by
    cases fuel with
    | zero => rfl
    | succ n =>
      unfold loop
      rw [if_neg]
      rw [h0]
      intro h2
      exact absurd (UInt8.lt_iff_toNat_lt.mp h2.2) (by simp)
  rw [this]
  unfold finishAll
  rw [h0, if_neg (by simp)]
  unfold finish
  cases p
  simp_all

theorem mid_first (junk : Nat → Bytes) {p : PSBT} (hp : p.Clean) {w y vb : Bytes} (e : w ++ y = varBytes vb) (hv : vb.length < 2 ^ 31) (hy : y ≠ []) (hw : w ≠ []) :
    ∃ q, fromStream junk p (.of (psbtMagic ++ ([1, 0] ++ w))) = (q, 7 + w.length, .of []) ∧ MidTx p q w := by
  rw [fromStream_eq junk hp]
  have hm : readMagic magic 0 (.of (psbtMagic ++ ([1, 0] ++ w))) = (true, 5, .of ([1, 0] ++ w)) := by
    simp [psbtMagic, magic, readMagic, PStream.avail, PStream.readByte]
  rw [hm]
  dsimp only
  obtain ⟨k, e1, h1, h2⟩ := Script.ready_var hp.key [0] w (by decide)
  obtain ⟨v, e2, h3⟩ := Script.ready_more hp.value hw (readVar_prefix e hv hy)
  have e1' : p.key.fromStream (.of ([1, 0] ++ w)) = (k, 2, .of w) := e1
  rw [start_eq hp.status]
  unfold readGlobal
  rw [if_pos (by rfl)]
  unfold parseKey
  dsimp only
  rw [e1']
  dsimp only
  unfold parseValue
  dsimp only
  rw [e2]
  dsimp only
  unfold globalKey
  dsimp only
  rw [if_neg (show ¬ ((PStream.of []).avail = true ∧ k.status = .incomplete) by simp)]
  dsimp only
  rw [if_neg (by rw [h1]; simp), if_neg (by rw [h1]; simp)]
  unfold globalValue
  dsimp only
  rw [if_neg (show ¬ ((PStream.of []).avail = true ∧ v.status = .incomplete) by simp)]
  dsimp only
  have hst := h3.status
  rw [if_neg (by rw [hst]; simp), if_neg (by rw [hst]; simp)]
  unfold afterGlobal
  rw [if_neg (by dsimp only; rw [hst]; simp), loop_start junk _ rfl rfl]
  refine ⟨{ p.start with key := k, value := v, bytesParsed := 7 + w.length }, ?_, k, v, h1, h2, h3, rfl⟩
  dsimp only
  rw [start_eq hp.status, show 0 + (5 + 2 + w.length) = 7 + w.length by omega, show 5 + 2 + w.length = 7 + w.length by omega]

theorem mid_next (junk : Nat → Bytes) {p q : PSBT} {w : Bytes} (hp : p.Clean) (hm : MidTx p q w) {c y vb : Bytes} (e : w ++ (c ++ y) = varBytes vb) (hv : vb.length < 2 ^ 31)
    (hy : y ≠ []) : ∃ q', fromStream junk q (.of c) = (q', c.length, .of []) ∧ MidTx p q' (w ++ c) := by
  obtain ⟨k, v, hk, hh, hmid, rfl⟩ := hm
  have hl : p.start.lastKeyPos = 5 := by rw [start_eq hp.status]
  have hst : p.start.status = .incomplete := by rw [start_eq hp.status]
  have hmore : readVar (w ++ c) = .more := readVar_prefix (by rw [List.append_assoc]; exact e) hv hy
  rw [fromStream_again junk { p.start with key := k, value := v, bytesParsed := 7 + w.length } hst (by dsimp only; omega)]
  unfold readGlobal
  rw [if_neg (by dsimp only; omega)]
  unfold globalKey
  dsimp only
  rw [if_neg (show ¬ (_ ∧ k.status = .incomplete) by rw [hk]; simp)]
  dsimp only
  rw [if_neg (by rw [hk]; simp), if_neg (by rw [hk]; simp)]
  unfold globalValue
  dsimp only
  by_cases hc : c = []
  · subst hc
    rw [if_neg (show ¬ ((PStream.of []).avail = true ∧ v.status = .incomplete) by simp)]
    dsimp only
    have hvs := hmid.status
    rw [if_neg (by rw [hvs]; simp), if_neg (by rw [hvs]; simp)]
    unfold afterGlobal
    rw [if_neg (by dsimp only; rw [hvs]; simp), loop_start junk _ (p := { p.start with key := k, value := v, bytesParsed := 7 + w.length }) hl hst]
    refine ⟨_, rfl, k, v, hk, hh, by rw [List.append_nil]; exact hmid, ?_⟩
    rw [List.append_nil, Nat.add_zero]
  · rw [if_pos (show (PStream.of c).avail = true ∧ v.status = .incomplete from ⟨by rw [PStream.avail_of]; simp [hc], hmid.status⟩)]
    obtain ⟨v', e2, h2⟩ := Script.mid_more hmid hmore
    unfold parseValue
    dsimp only
    rw [e2]
    dsimp only
    have hvs := h2.status
    rw [if_neg (by rw [hvs]; simp), if_neg (by rw [hvs]; simp)]
    unfold afterGlobal
    rw [if_neg (by dsimp only; rw [hvs]; simp), loop_start junk _ (p := { p.start with key := k, value := v', bytesParsed := 7 + w.length }) hl hst, Nat.zero_add]
    refine ⟨_, rfl, k, v', hk, hh, h2, ?_⟩
    dsimp only
    rw [List.length_append, Nat.add_assoc]

theorem mid_last (junk : Nat → Bytes) {p q : PSBT} {w : Bytes} (hp : p.Clean) (hm : MidTx p q w) {c r vb : Bytes} (e : w ++ c = varBytes vb ++ r) (hv : vb.length < 2 ^ 31)
    (hw : w.length < (varBytes vb).length) {t : Tx} (ht : t = (p.txStart.fromStream (.of (vb.drop (misread vb.length)))).1) (hd : t.status = .done) :
    ∃ k v, k.Ready ∧ v.Ready ∧ fromStream junk q (.of c) =
      loop junk (2 * r.length + 2) { p.afterTx t k v vb with bytesParsed := 7 + w.length } ((varBytes vb).length - w.length) (.of r) := by
  obtain ⟨k, v, hk, hh, hmid, rfl⟩ := hm
  have hl : p.start.lastKeyPos = 5 := by rw [start_eq hp.status]
  have hst : p.start.status = .incomplete := by rw [start_eq hp.status]
  have hlen := congrArg List.length e
  simp only [List.length_append] at hlen
  have hc : c ≠ [] := by
    rintro rfl
    rw [List.length_nil] at hlen
    omega
  rw [fromStream_again junk { p.start with key := k, value := v, bytesParsed := 7 + w.length } hst (by dsimp only; omega)]
  unfold readGlobal
  rw [if_neg (by dsimp only; omega)]
  unfold globalKey
  dsimp only
  rw [if_neg (show ¬ (_ ∧ k.status = .incomplete) by rw [hk]; simp)]
  dsimp only
  rw [if_neg (by rw [hk]; simp), if_neg (by rw [hk]; simp)]
  unfold globalValue
  dsimp only
  rw [if_pos (show (PStream.of c).avail = true ∧ v.status = .incomplete from ⟨by rw [PStream.avail_of]; simp [hc], hmid.status⟩)]
  obtain ⟨v', e2, h2, h3⟩ := Script.mid_var hmid vb r hv e (by omega)
  unfold parseValue
  dsimp only
  rw [e2]
  dsimp only
  rw [if_neg (by rw [h2]; simp), if_neg (by rw [h2]; simp)]
  unfold afterGlobal
  rw [if_pos ⟨hl, h2, hk⟩]
  unfold PSBT.readTx
  dsimp only
  rw [Script.ser_eq hh (by decide), C.bind_ok, if_neg (by decide), Script.ser_eq h3 (by omega), C.bind_ok, drop_dataPos vb hv,
    show p.start.tx = p.txStart by rw [start_eq hp.status]]
  rw [← show _ = PStream.mk (vb.drop (misread vb.length)) from rfl]
  rw [show (p.txStart.fromStream { bytes := vb.drop (misread vb.length) }).1 = t from ht.symm]
  rw [if_neg (by rw [hd]; simp), if_neg (by rw [hd]; simp), C.pure_eq]
  dsimp only
  rw [if_neg (by rw [hst]; simp), Nat.zero_add]
  refine ⟨k, v', script_ready_holds _ _ hk hh, script_ready_holds _ _ h2 h3, ?_⟩
  rw [Script.length_eq k _ hh (by decide), Script.length_eq v' _ h3 (by omega), hl, start_eq hp.status]
  rfl

/-- The rest of the pieces. -/
theorem mid_feed (junk : Nat → Bytes) {p : PSBT} (hp : p.Clean) {vb : Bytes} {maps : List (List Pair)} {t : Tx} {ms : List InMeta × List OutMeta}
    (h : Accepts junk p vb maps t ms) (rest : Bytes) : ∀ (cs : List Bytes) (q : PSBT) (w : Bytes), MidTx p q w → w ++ cs.flatten = varBytes vb ++ (mapsBytes maps ++ rest) →
    (∀ i, i < cs.length → w.length + (cs.take i).flatten.length < (varBytes vb).length) → w.length < (varBytes vb).length →
    (feedPieces (fromStream junk) (·.status) q cs).1.status = .done ∧ (feedPieces (fromStream junk) (·.status) q cs).1.tx = t ∧
    (feedPieces (fromStream junk) (·.status) q cs).1.ins = ms.1 ∧ (feedPieces (fromStream junk) (·.status) q cs).1.outs = ms.2 ∧
    w.length + (feedPieces (fromStream junk) (·.status) q cs).2 = (varBytes vb).length + (mapsBytes maps).length
  | [], q, w, hm, e, hcut, hlt => by
    exfalso
    have := congrArg List.length e
    simp only [List.flatten_nil, List.length_append, List.length_nil] at this
    omega
  | [c], q, w, hm, e, hcut, hlt => by
    rw [List.flatten_cons, List.flatten_nil, List.append_nil] at e
    obtain ⟨k, v, hk, hv, e2⟩ := mid_last junk hp hm e h.size hlt h.tx h.done
    obtain ⟨pos, hrun⟩ := h.run
    have hsec : ({ p.afterTx t k v vb with bytesParsed := 7 + w.length } : PSBT).sections = UInt8.ofNat (1 + t.txIns.length + t.txOuts.length) := sections_afterTx p t k v vb
    have l5 := loop_complete junk (2 * (mapsBytes maps ++ rest).length + 2) { p.afterTx t k v vb with bytesParsed := 7 + w.length } ((varBytes vb).length - w.length)
      maps rest pos ms hk hv rfl (by unfold afterTx; dsimp only; omega) (by
        rw [hsec, gt_iff_lt, UInt8.lt_iff_toNat_lt, ← h.sections]; exact h.pos)
      (by rw [hsec, ← h.sections]; exact Nat.zero_add _) h.good (by rw [List.length_append]; omega) hrun
    rw [← e2] at l5
    unfold feedPieces
    dsimp only
    rw [if_neg (by rw [l5.status]; simp)]
    refine ⟨l5.status, l5.tx, l5.ins, l5.outs, ?_⟩
    have h7 := l5.read
    simp only [List.length_append] at h7
    dsimp only
    omega
  | c :: c' :: cs, q, w, hm, e, hcut, hlt => by
    have h1 := hcut 1 (by simp)
    simp only [List.take_succ_cons, List.take_zero, List.flatten_cons, List.flatten_nil, List.append_nil] at h1
    rw [List.flatten_cons, ← List.append_assoc] at e
    have hlen := congrArg List.length e
    simp only [List.length_append] at hlen
    have hx : w ++ c = (varBytes vb).take (w ++ c).length := by
      have := congrArg (List.take (w ++ c).length) e
      rw [List.take_left, List.take_append_of_le_length (by rw [List.length_append]; omega)] at this
      exact this
    have hy : w ++ (c ++ (varBytes vb).drop (w ++ c).length) = varBytes vb := by
      rw [← List.append_assoc]
      nth_rewrite 1 [hx]
      exact List.take_append_drop _ _
    obtain ⟨q', e1, hm'⟩ := mid_next junk hp hm hy h.size (by
      intro h0
      have := congrArg List.length h0
      rw [List.length_drop, List.length_append, List.length_nil] at this
      omega)
    obtain ⟨i1, i2, i3, i4, i5⟩ := mid_feed junk hp h rest (c' :: cs) q' (w ++ c) hm' e (by
      intro i hi
      have := hcut (i + 1) (by rw [List.length_cons]; omega)
      rw [List.take_succ_cons, List.flatten_cons, List.length_append] at this
      rw [List.length_append]
      omega) (by rw [List.length_append]; omega)
    have hst : q'.status = .incomplete := by
      obtain ⟨_, _, _, _, _, rfl⟩ := hm'
      show p.start.status = _
      rw [start_eq hp.status]
    have ef : feedPieces (fromStream junk) (·.status) q (c :: c' :: cs) = ((feedPieces (fromStream junk) (·.status) q' (c' :: cs)).1, c.length + (feedPieces (fromStream junk) (·.status) q' (c' :: cs)).2) := by
      conv_lhs => unfold feedPieces
      rw [e1]
      dsimp only
      rw [if_pos hst]
    rw [ef]
    refine ⟨i1, i2, i3, i4, ?_⟩
    rw [List.length_append] at i5
    dsimp only
    omega

end PSBT
end UB
