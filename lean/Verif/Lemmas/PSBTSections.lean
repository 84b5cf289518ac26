import Verif.Lemmas.PSBTMaps

/-
The maps of a PSBT, one section at a time.
-/

namespace UB
open Spec

/-- The key byte that selects the field. -/
def keyCode (k : Bytes) : C UInt8 := peek k (misread k.length)

/-- The pairs `ps` take the metadata of the input `ti` from the first to the second state; no pair is refused. -/
inductive InRun (ti : TxIn) : InMeta → List Pair → InMeta → Prop
  | nil (m : InMeta) : InRun ti m [] m
  | cons {m m' m'' : InMeta} {k v : Bytes} {ps : List Pair} (code : UInt8) (junk : Bytes) (r : Int) (hc : keyCode k = .ok code)
      (ha : m.add junk ti code (varBytes k) (varBytes v) = .ok (r, m')) (h0 : 0 ≤ r) (hs : InRun ti m' ps m'') : InRun ti m ((k, v) :: ps) m''

inductive OutRun : OutMeta → List Pair → OutMeta → Prop
  | nil (m : OutMeta) : OutRun m [] m
  | cons {m m' m'' : OutMeta} {k v : Bytes} {ps : List Pair} (code : UInt8) (junk : Bytes) (r : Int) (hc : keyCode k = .ok code)
      (ha : m.add junk code (varBytes k) (varBytes v) = .ok (r, m')) (h0 : 0 ≤ r) (hs : OutRun m' ps m'') : OutRun m ((k, v) :: ps) m''

/-- Whatever the uninitialised memory holds, the pairs are accepted and lead to a state with `P`. -/
def InSafe (ti : TxIn) (P : InMeta → Prop) : InMeta → List Pair → Prop
  | m, [] => P m
  | m, (k, v) :: ps => ∃ code, keyCode k = .ok code ∧ ∀ junk, ∃ r m', m.add junk ti code (varBytes k) (varBytes v) = .ok (r, m') ∧ 0 ≤ r ∧ InSafe ti P m' ps

def OutSafe (P : OutMeta → Prop) : OutMeta → List Pair → Prop
  | m, [] => P m
  | m, (k, v) :: ps => ∃ code, keyCode k = .ok code ∧ ∀ junk, ∃ r m', m.add junk code (varBytes k) (varBytes v) = .ok (r, m') ∧ 0 ≤ r ∧ OutSafe P m' ps

namespace PSBT

theorem runMap_zero (t : Tx) (junk : Nat → Bytes) : ∀ (m : List Pair) (pos : Nat) (ms : List InMeta × List OutMeta),
    ∃ pos', runMap t junk 0 m pos ms = .ok (some (pos', ms))
  | [], pos, ms => ⟨pos, rfl⟩
  | (k, v) :: m, pos, ms => by
    obtain ⟨pos', h⟩ := runMap_zero t junk m (pos + ((varBytes k).length + (varBytes v).length)) ms
    refine ⟨pos', ?_⟩
    unfold runMap addM
    rw [if_pos (Or.inl rfl), C.bind_ok]
    dsimp only
    rw [if_neg (by decide)]
    exact h

theorem runMap_in {t : Tx} {junk : Nat → Bytes} {sec : Nat} (h1 : 1 ≤ sec) (h2 : sec < 1 + t.txIns.length) {ti : TxIn} (hti : t.txIns[sec - 1]? = some ti) :
    ∀ (m : List Pair) (pos : Nat) (ms : List InMeta × List OutMeta) (pos' : Nat) (ms' : List InMeta × List OutMeta) (a : InMeta), ms.1[sec - 1]? = some a →
    (∀ q ∈ m, GoodPair q) → runMap t junk sec m pos ms = .ok (some (pos', ms')) → ∃ b, InRun ti a m b ∧ ms' = (ms.1.set (sec - 1) b, ms.2)
  | [], pos, ms, pos', ms', a, ha, hg, h => by
    unfold runMap at h
    cases h
    refine ⟨a, .nil a, ?_⟩
    rw [List.getElem?_eq_some_iff] at ha
    obtain ⟨hlt, rfl⟩ := ha
    rw [List.set_getElem_self hlt]
  | (k, v) :: m, pos, ms, pos', ms', a, ha, hg, h => by
    have hgk := hg (k, v) (List.mem_cons_self ..)
    unfold runMap at h
    unfold addM at h
    rw [if_neg (by omega), peek_dataPos k hgk.2.1] at h
    rw [show peek k (misread k.length) = keyCode k from rfl] at h
    cases hc : keyCode k with
    | ub => rw [hc, C.bind_ub, C.bind_ub] at h; cases h
    | ok code =>
      rw [hc, C.bind_ok, if_pos h2, ha, hti] at h
      dsimp only at h
      cases hadd : a.add (junk pos) ti code (varBytes k) (varBytes v) with
      | ub => rw [hadd, C.bind_ub, C.bind_ub] at h; cases h
      | ok y =>
        obtain ⟨r, a'⟩ := y
        rw [hadd, C.bind_ok, C.pure_eq, C.bind_ok] at h
        dsimp only at h
        by_cases h0 : r < 0
        · rw [if_pos h0] at h; cases h
        · rw [if_neg h0] at h
          have hlt : sec - 1 < ms.1.length := by
            rw [List.getElem?_eq_some_iff] at ha
            exact ha.1
          obtain ⟨b, hb1, hb2⟩ := runMap_in h1 h2 hti m _ _ _ _ a' (by dsimp only; rw [List.getElem?_set_self hlt])
            (fun q hq => hg q (List.mem_cons_of_mem _ hq)) h
          refine ⟨b, .cons code (junk pos) r hc hadd (by omega) hb1, ?_⟩
          rw [hb2]
          dsimp only
          rw [List.set_set]

theorem runMap_out {t : Tx} {junk : Nat → Bytes} {sec : Nat} (h1 : 1 + t.txIns.length ≤ sec) (h2 : sec < 1 + t.txIns.length + t.txOuts.length) :
    ∀ (m : List Pair) (pos : Nat) (ms : List InMeta × List OutMeta) (pos' : Nat) (ms' : List InMeta × List OutMeta) (a : OutMeta), ms.2[sec - 1 - t.txIns.length]? = some a →
    (∀ q ∈ m, GoodPair q) → runMap t junk sec m pos ms = .ok (some (pos', ms')) → ∃ b, OutRun a m b ∧ ms' = (ms.1, ms.2.set (sec - 1 - t.txIns.length) b)
  | [], pos, ms, pos', ms', a, ha, hg, h => by
    unfold runMap at h
    cases h
    refine ⟨a, .nil a, ?_⟩
    rw [List.getElem?_eq_some_iff] at ha
    obtain ⟨hlt, rfl⟩ := ha
    rw [List.set_getElem_self hlt]
  | (k, v) :: m, pos, ms, pos', ms', a, ha, hg, h => by
    have hgk := hg (k, v) (List.mem_cons_self ..)
    unfold runMap at h
    unfold addM at h
    rw [if_neg (by omega), peek_dataPos k hgk.2.1] at h
    rw [show peek k (misread k.length) = keyCode k from rfl] at h
    cases hc : keyCode k with
    | ub => rw [hc, C.bind_ub, C.bind_ub] at h; cases h
    | ok code =>
      rw [hc, C.bind_ok, if_neg (by omega), ha] at h
      dsimp only at h
      cases hadd : a.add (junk pos) code (varBytes k) (varBytes v) with
      | ub => rw [hadd, C.bind_ub, C.bind_ub] at h; cases h
      | ok y =>
        obtain ⟨r, a'⟩ := y
        rw [hadd, C.bind_ok, C.pure_eq, C.bind_ok] at h
        dsimp only at h
        by_cases h0 : r < 0
        · rw [if_pos h0] at h; cases h
        · rw [if_neg h0] at h
          have hlt : sec - 1 - t.txIns.length < ms.2.length := by
            rw [List.getElem?_eq_some_iff] at ha
            exact ha.1
          obtain ⟨b, hb1, hb2⟩ := runMap_out h1 h2 m _ _ _ _ a' (by dsimp only; rw [List.getElem?_set_self hlt])
            (fun q hq => hg q (List.mem_cons_of_mem _ hq)) h
          refine ⟨b, .cons code (junk pos) r hc hadd (by omega) hb1, ?_⟩
          rw [hb2]
          dsimp only
          rw [List.set_set]

/-- All maps: every section acts on its own metadata. -/
theorem runMaps_sections {t : Tx} {junk : Nat → Bytes} : ∀ (maps : List (List Pair)) (sec pos : Nat) (ms : List InMeta × List OutMeta) (pos' : Nat)
    (ms' : List InMeta × List OutMeta), ms.1.length = t.txIns.length → ms.2.length = t.txOuts.length → sec + maps.length ≤ 1 + t.txIns.length + t.txOuts.length →
    (∀ m ∈ maps, ∀ q ∈ m, GoodPair q) → runMaps t junk maps sec pos ms = .ok (some (pos', ms')) →
    ms'.1.length = t.txIns.length ∧ ms'.2.length = t.txOuts.length ∧
    (∀ i ti a, t.txIns[i]? = some ti → ms.1[i]? = some a → ∃ b, ms'.1[i]? = some b ∧ (i + 1 < sec → b = a) ∧ (sec ≤ i + 1 → InRun ti a (maps[i + 1 - sec]?.getD []) b)) ∧
    (∀ i a, ms.2[i]? = some a → ∃ b, ms'.2[i]? = some b ∧ (1 + t.txIns.length + i < sec → b = a) ∧
      (sec ≤ 1 + t.txIns.length + i → OutRun a (maps[1 + t.txIns.length + i - sec]?.getD []) b))
  | [], sec, pos, ms, pos', ms', hl1, hl2, hs, hg, h => by
    unfold runMaps at h
    cases h
    exact ⟨hl1, hl2, fun i ti a _ ha => ⟨a, ha, fun _ => rfl, fun _ => .nil a⟩, fun i a ha => ⟨a, ha, fun _ => rfl, fun _ => .nil a⟩⟩
  | m :: maps, sec, pos, ms, pos', ms', hl1, hl2, hs, hg, h => by
    rw [List.length_cons] at hs
    unfold runMaps at h
    have hgm := hg m (List.mem_cons_self ..)
    have hgs : ∀ m ∈ maps, ∀ q ∈ m, GoodPair q := fun m' hm' => hg m' (List.mem_cons_of_mem _ hm')
    cases hr : runMap t junk sec m pos ms with
    | ub => rw [hr, C.bind_ub] at h; cases h
    | ok y =>
      rw [hr, C.bind_ok] at h
      cases y with
      | none => cases h
      | some y =>
        obtain ⟨pos1, ms1⟩ := y
        dsimp only at h
        by_cases hz : sec = 0
        · subst hz
          obtain ⟨pos2, h2⟩ := runMap_zero t junk m pos ms
          rw [hr] at h2
          cases h2
          obtain ⟨i1, i2, i3, i4⟩ := runMaps_sections maps (0 + 1) _ ms pos' ms' hl1 hl2 (by omega) hgs h
          refine ⟨i1, i2, ?_, ?_⟩
          · intro i ti a hti ha
            obtain ⟨b, b1, -, b3⟩ := i3 i ti a hti ha
            refine ⟨b, b1, by omega, fun _ => ?_⟩
            have := b3 (by omega)
            rw [show i + 1 - (0 + 1) = i by omega] at this
            rw [Nat.sub_zero, List.getElem?_cons_succ]
            exact this
          · intro i a ha
            obtain ⟨b, b1, -, b3⟩ := i4 i a ha
            refine ⟨b, b1, by omega, fun _ => ?_⟩
            have := b3 (by omega)
            rw [show 1 + t.txIns.length + i - (0 + 1) = t.txIns.length + i by omega] at this
            rw [Nat.sub_zero, show 1 + t.txIns.length + i = (t.txIns.length + i) + 1 by omega, List.getElem?_cons_succ]
            exact this
        by_cases hin : sec < 1 + t.txIns.length
        · have hlt : sec - 1 < t.txIns.length := by omega
          obtain ⟨b0, hb1, hb2⟩ := runMap_in (by omega) hin (List.getElem?_eq_getElem hlt) m pos ms pos1 ms1 _ (List.getElem?_eq_getElem (by rw [hl1]; exact hlt)) hgm hr
          subst hb2
          obtain ⟨i1, i2, i3, i4⟩ := runMaps_sections maps (sec + 1) _ (ms.1.set (sec - 1) b0, ms.2) pos' ms' (by rw [List.length_set]; exact hl1) hl2 (by omega) hgs h
          refine ⟨i1, i2, ?_, ?_⟩
          · intro i ti a hti ha
            by_cases hi : i = sec - 1
            · subst hi
              obtain ⟨b, b1, b2, -⟩ := i3 (sec - 1) ti b0 hti (by rw [List.getElem?_set_self (by omega)])
              have : b = b0 := b2 (by omega)
              subst this
              refine ⟨b, b1, by omega, fun _ => ?_⟩
              rw [show sec - 1 + 1 - sec = 0 by omega, List.getElem?_cons_zero]
              rw [List.getElem?_eq_getElem hlt] at hti
              rw [List.getElem?_eq_getElem (by omega)] at ha
              cases hti
              cases ha
              exact hb1
            · obtain ⟨b, b1, b2, b3⟩ := i3 i ti a hti (by dsimp only; rw [List.getElem?_set_ne (by omega)]; exact ha)
              refine ⟨b, b1, fun h => b2 (by omega), fun h => ?_⟩
              have := b3 (by omega)
              rw [show i + 1 - sec = (i + 1 - (sec + 1)) + 1 by omega, List.getElem?_cons_succ]
              exact this
          · intro i a ha
            obtain ⟨b, b1, -, b3⟩ := i4 i a ha
            refine ⟨b, b1, by omega, fun _ => ?_⟩
            have := b3 (by omega)
            rw [show 1 + t.txIns.length + i - sec = (1 + t.txIns.length + i - (sec + 1)) + 1 by omega, List.getElem?_cons_succ]
            exact this
        · have hlt : sec - 1 - t.txIns.length < t.txOuts.length := by omega
          obtain ⟨b0, hb1, hb2⟩ := runMap_out (by omega) (by omega) m pos ms pos1 ms1 _ (List.getElem?_eq_getElem (by rw [hl2]; exact hlt)) hgm hr
          subst hb2
          obtain ⟨i1, i2, i3, i4⟩ := runMaps_sections maps (sec + 1) _ (ms.1, ms.2.set (sec - 1 - t.txIns.length) b0) pos' ms' hl1 (by rw [List.length_set]; exact hl2) (by omega) hgs h
          refine ⟨i1, i2, ?_, ?_⟩
          · intro i ti a hti ha
            have hil : i < t.txIns.length := (List.getElem?_eq_some_iff.mp hti).1
            obtain ⟨b, b1, b2, -⟩ := i3 i ti a hti ha
            exact ⟨b, b1, fun _ => b2 (by omega), by omega⟩
          · intro i a ha
            by_cases hi : i = sec - 1 - t.txIns.length
            · subst hi
              obtain ⟨b, b1, b2, -⟩ := i4 (sec - 1 - t.txIns.length) b0 (by rw [List.getElem?_set_self (by omega)])
              have : b = b0 := b2 (by omega)
              subst this
              refine ⟨b, b1, by omega, fun _ => ?_⟩
              rw [show 1 + t.txIns.length + (sec - 1 - t.txIns.length) - sec = 0 by omega, List.getElem?_cons_zero]
              rw [List.getElem?_eq_getElem (by omega)] at ha
              cases ha
              exact hb1
            · obtain ⟨b, b1, b2, b3⟩ := i4 i a (by dsimp only; rw [List.getElem?_set_ne (by omega)]; exact ha)
              refine ⟨b, b1, fun h => b2 (by omega), fun h => ?_⟩
              have := b3 (by omega)
              rw [show 1 + t.txIns.length + i - sec = (1 + t.txIns.length + i - (sec + 1)) + 1 by omega, List.getElem?_cons_succ]
              exact this

theorem runMap_in_safe {t : Tx} {sec : Nat} (junk : Nat → Bytes) (h1 : 1 ≤ sec) (h2 : sec < 1 + t.txIns.length) {ti : TxIn} (hti : t.txIns[sec - 1]? = some ti)
    {P : InMeta → Prop} : ∀ (m : List Pair) (pos : Nat) (ms : List InMeta × List OutMeta) (a : InMeta), ms.1[sec - 1]? = some a →
    (∀ q ∈ m, GoodPair q) → InSafe ti P a m → ∃ pos' b, runMap t junk sec m pos ms = .ok (some (pos', (ms.1.set (sec - 1) b, ms.2))) ∧ P b
  | [], pos, ms, a, ha, hg, h => by
    refine ⟨pos, a, ?_, h⟩
    unfold runMap
    rw [List.getElem?_eq_some_iff] at ha
    obtain ⟨hlt, rfl⟩ := ha
    rw [List.set_getElem_self hlt]
  | (k, v) :: m, pos, ms, a, ha, hg, h => by
    have hgk := hg (k, v) (List.mem_cons_self ..)
    obtain ⟨code, hc, h⟩ := h
    obtain ⟨r, a', hadd, h0, h⟩ := h (junk pos)
    have hlt : sec - 1 < ms.1.length := by
      rw [List.getElem?_eq_some_iff] at ha
      exact ha.1
    obtain ⟨pos', b, hb1, hb2⟩ := runMap_in_safe junk h1 h2 hti m (pos + ((varBytes k).length + (varBytes v).length)) (ms.1.set (sec - 1) a', ms.2) a'
      (by rw [List.getElem?_set_self hlt]) (fun q hq => hg q (List.mem_cons_of_mem _ hq)) h
    refine ⟨pos', b, ?_, hb2⟩
    rw [List.set_set] at hb1
    unfold runMap
    unfold addM
    rw [if_neg (by omega), peek_dataPos k hgk.2.1, show peek k (misread k.length) = keyCode k from rfl, hc, C.bind_ok, if_pos h2, ha, hti]
    dsimp only
    rw [hadd, C.bind_ok, C.pure_eq, C.bind_ok]
    dsimp only
    rw [if_neg (by omega)]
    exact hb1

theorem runMap_out_safe {t : Tx} {sec : Nat} (junk : Nat → Bytes) (h1 : 1 + t.txIns.length ≤ sec) (h2 : sec < 1 + t.txIns.length + t.txOuts.length)
    {P : OutMeta → Prop} : ∀ (m : List Pair) (pos : Nat) (ms : List InMeta × List OutMeta) (a : OutMeta), ms.2[sec - 1 - t.txIns.length]? = some a →
    (∀ q ∈ m, GoodPair q) → OutSafe P a m → ∃ pos' b, runMap t junk sec m pos ms = .ok (some (pos', (ms.1, ms.2.set (sec - 1 - t.txIns.length) b))) ∧ P b
  | [], pos, ms, a, ha, hg, h => by
    refine ⟨pos, a, ?_, h⟩
    unfold runMap
    rw [List.getElem?_eq_some_iff] at ha
    obtain ⟨hlt, rfl⟩ := ha
    rw [List.set_getElem_self hlt]
  | (k, v) :: m, pos, ms, a, ha, hg, h => by
    have hgk := hg (k, v) (List.mem_cons_self ..)
    obtain ⟨code, hc, h⟩ := h
    obtain ⟨r, a', hadd, h0, h⟩ := h (junk pos)
    have hlt : sec - 1 - t.txIns.length < ms.2.length := by
      rw [List.getElem?_eq_some_iff] at ha
      exact ha.1
    obtain ⟨pos', b, hb1, hb2⟩ := runMap_out_safe junk h1 h2 m (pos + ((varBytes k).length + (varBytes v).length)) (ms.1, ms.2.set (sec - 1 - t.txIns.length) a') a'
      (by rw [List.getElem?_set_self hlt]) (fun q hq => hg q (List.mem_cons_of_mem _ hq)) h
    refine ⟨pos', b, ?_, hb2⟩
    rw [List.set_set] at hb1
    unfold runMap
    unfold addM
    rw [if_neg (by omega), peek_dataPos k hgk.2.1, show peek k (misread k.length) = keyCode k from rfl, hc, C.bind_ok, if_neg (by omega), ha]
    dsimp only
    rw [hadd, C.bind_ok, C.pure_eq, C.bind_ok]
    dsimp only
    rw [if_neg (by omega)]
    exact hb1

/-- Input maps, when the sections behind them are `rest`. -/
theorem runMaps_in_safe {t : Tx} (junk : Nat → Bytes) (rest : List (List Pair)) (P : TxIn → List Pair → InMeta → Prop) :
    ∀ (tis : List TxIn) (maps : List (List Pair)) (pre : List TxIn) (A : List InMeta) (outs : List OutMeta) (pos : Nat), t.txIns = pre ++ tis → A.length = pre.length →
    List.Forall₂ (fun ti m => (∀ q ∈ m, GoodPair q) ∧ InSafe ti (P ti m) {} m) tis maps →
    ∃ pos' B, runMaps t junk (maps ++ rest) (1 + pre.length) pos (A ++ List.replicate tis.length ({} : InMeta), outs) =
        runMaps t junk rest (1 + t.txIns.length) pos' (A ++ B, outs) ∧ B.length = tis.length ∧ List.Forall₂ (fun (x : TxIn × List Pair) b => P x.1 x.2 b) (tis.zip maps) B
  | [], _, pre, A, outs, pos, hpre, hA, .nil => by
    refine ⟨pos, [], ?_, rfl, .nil⟩
    rw [hpre]; simp
  | ti :: tis, m :: maps, pre, A, outs, pos, hpre, hA, .cons ⟨hg, hs⟩ hrest => by
    have hti : t.txIns[1 + pre.length - 1]? = some ti := by
      rw [hpre, Nat.add_sub_cancel_left, List.getElem?_append_right (by omega), Nat.sub_self]; rfl
    have hlt : 1 + pre.length < 1 + t.txIns.length := by rw [hpre]; simp
    obtain ⟨pos1, b, hb1, hb2⟩ := runMap_in_safe junk (by omega) hlt hti m pos (A ++ List.replicate (ti :: tis).length ({} : InMeta), outs) {} (by
      dsimp only
      rw [Nat.add_sub_cancel_left, ← hA, List.getElem?_append_right (by omega), Nat.sub_self]; rfl) hg hs
    have hset : (A ++ List.replicate (ti :: tis).length ({} : InMeta)).set (1 + pre.length - 1) b = (A ++ [b]) ++ List.replicate tis.length ({} : InMeta) := by
      rw [Nat.add_sub_cancel_left, ← hA, List.set_append_right _ _ (Nat.le_refl _), Nat.sub_self, List.length_cons, List.replicate_succ, List.set_cons_zero]
      simp
    rw [hset] at hb1
    obtain ⟨pos2, B, i1, i2, i3⟩ := runMaps_in_safe junk rest P tis maps (pre ++ [ti]) (A ++ [b]) outs (pos1 + 1) (by rw [hpre]; simp) (by simp [hA]) hrest
    refine ⟨pos2, b :: B, ?_, by simp [i2], .cons hb2 i3⟩
    rw [List.cons_append]
    conv_lhs => unfold runMaps
    rw [hb1, C.bind_ok]
    dsimp only
    rw [List.length_append, List.length_singleton, ← Nat.add_assoc] at i1
    rw [i1]
    simp

theorem runMaps_out_safe {t : Tx} (junk : Nat → Bytes) (P : List Pair → OutMeta → Prop) (ins : List InMeta) :
    ∀ (maps : List (List Pair)) (A : List OutMeta) (pos : Nat), A.length + maps.length = t.txOuts.length →
    (∀ m ∈ maps, (∀ q ∈ m, GoodPair q) ∧ OutSafe (P m) {} m) →
    ∃ pos' B, runMaps t junk maps (1 + t.txIns.length + A.length) pos (ins, A ++ List.replicate maps.length ({} : OutMeta)) = .ok (some (pos', (ins, A ++ B))) ∧
      List.Forall₂ P maps B
  | [], A, pos, hA, _ => ⟨pos, [], by simp [runMaps], .nil⟩
  | m :: maps, A, pos, hA, h => by
    rw [List.length_cons] at hA
    obtain ⟨hg, hs⟩ := h m (List.mem_cons_self ..)
    have hsub : 1 + t.txIns.length + A.length - 1 - t.txIns.length = A.length := by omega
    obtain ⟨pos1, b, hb1, hb2⟩ := runMap_out_safe junk (t := t) (sec := 1 + t.txIns.length + A.length) (by omega) (by omega) m pos (ins, A ++ List.replicate (m :: maps).length ({} : OutMeta)) {} (by
      dsimp only
      rw [hsub, List.getElem?_append_right (by omega), Nat.sub_self]; rfl) hg hs
    have hset : (A ++ List.replicate (m :: maps).length ({} : OutMeta)).set (1 + t.txIns.length + A.length - 1 - t.txIns.length) b = (A ++ [b]) ++ List.replicate maps.length ({} : OutMeta) := by
      rw [hsub, List.set_append_right _ _ (Nat.le_refl _), Nat.sub_self, List.length_cons, List.replicate_succ, List.set_cons_zero]
      simp
    rw [hset] at hb1
    obtain ⟨pos2, B, i1, i2⟩ := runMaps_out_safe (t := t) junk P ins maps (A ++ [b]) (pos1 + 1) (by simp; omega) (fun m' hm' => h m' (List.mem_cons_of_mem _ hm'))
    refine ⟨pos2, b :: B, ?_, .cons hb2 i2⟩
    conv_lhs => unfold runMaps
    rw [hb1, C.bind_ok]
    dsimp only
    rw [List.length_append, List.length_singleton, ← Nat.add_assoc] at i1
    rw [i1]
    simp

/-- A PSBT whose sections are safe is accepted. -/
theorem accepts_of_safe (junk : Nat → Bytes) (p : PSBT) (vb : Bytes) (globals : List Pair) (ims oms : List (List Pair)) (t : Tx) (P : TxIn → List Pair → InMeta → Prop)
    (Q : List Pair → OutMeta → Prop) (hv : vb.length < 2 ^ 31) (ht : t = (p.txStart.fromStream (.of (vb.drop (misread vb.length)))).1) (hd : t.status = .done)
    (hsz : t.txIns.length + t.txOuts.length ≤ 254) (hg : ∀ q ∈ globals, GoodPair q)
    (hin : List.Forall₂ (fun ti m => (∀ q ∈ m, GoodPair q) ∧ InSafe ti (P ti m) {} m) t.txIns ims)
    (hol : oms.length = t.txOuts.length) (hout : ∀ m ∈ oms, (∀ q ∈ m, GoodPair q) ∧ OutSafe (Q m) {} m) :
    ∃ A B, Accepts junk p vb (globals :: (ims ++ oms)) t (A, B) ∧ A.length = t.txIns.length ∧
      List.Forall₂ (fun (x : TxIn × List Pair) b => P x.1 x.2 b) (t.txIns.zip ims) A ∧ List.Forall₂ Q oms B := by
  obtain ⟨pos0, h0⟩ := runMap_zero t junk globals (5 + (2 + (varBytes vb).length)) (noMeta t)
  obtain ⟨pos1, A, h1, h2, h3⟩ := runMaps_in_safe junk oms P t.txIns ims [] [] (List.replicate t.txOuts.length ({} : OutMeta)) (pos0 + 1) rfl rfl hin
  obtain ⟨pos2, B, h4, h5⟩ := runMaps_out_safe (t := t) junk Q A oms [] pos1 (by simpa using hol) hout
  have hil := hin.length_eq
  refine ⟨A, B, ⟨hv, ht, hd, ?_, by simp, ?_, pos2, ?_⟩, h2, h3, h5⟩
  · rw [List.length_cons, List.length_append, UInt8.toNat_ofNat']
    omega
  · intro m hm q hq
    rcases List.mem_cons.mp hm with rfl | hm
    · exact hg q hq
    rcases List.mem_append.mp hm with hm | hm
    · obtain ⟨i, hi, rfl⟩ := List.getElem_of_mem hm
      have := (List.forall₂_iff_get.mp hin).2 i (by omega) hi
      exact this.1 q hq
    · exact (hout m hm).1 q hq
  · unfold runMaps
    rw [h0, C.bind_ok]
    dsimp only
    have e : noMeta t = ([] ++ List.replicate t.txIns.length ({} : InMeta), List.replicate t.txOuts.length ({} : OutMeta)) := rfl
    rw [e, show 0 + 1 = 1 + ([] : List TxIn).length from rfl, h1]
    have e2 : List.replicate t.txOuts.length ({} : OutMeta) = [] ++ List.replicate oms.length ({} : OutMeta) := by rw [hol]; rfl
    rw [List.nil_append, e2, show 1 + t.txIns.length = 1 + t.txIns.length + ([] : List OutMeta).length from rfl, h4]
    rfl

end PSBT
end UB
