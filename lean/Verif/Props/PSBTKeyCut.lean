import Verif.Props.PSBTPieces

/-
C74 (continued): a cut inside a key, and a cut between a key and its value.
-/

namespace UB
open Spec

namespace PSBT

/-- The object before the bytes `x`, with which the first piece ends: the maps `pre` and the pairs `qs1` have been read. -/
theorem before_cut (junk : Nat → Bytes) {p : PSBT} (hp : p.Clean) {vb : Bytes} {pre post : List (List Pair)} {qs1 qs2 : List Pair} {t : Tx}
    {ms : List InMeta × List OutMeta} (h : Accepts junk p vb (pre ++ (qs1 ++ qs2) :: post) t ms) (x : Bytes) :
    ∃ P f, Before junk P t ms pre.length (qs2 :: post) ∧ P.key.Ready ∧ P.value.Ready ∧ P.status = .incomplete ∧ P.bytesParsed = 0 ∧ P.sec < P.sections ∧
      P.lastKeyPos = (psbtMagic ++ pairBytes ([0], vb) ++ (mapsBytes pre ++ qs1.flatMap pairBytes)).length ∧ x.length ≤ f ∧
      fromStream junk p (.of (psbtMagic ++ pairBytes ([0], vb) ++ (mapsBytes pre ++ (qs1.flatMap pairBytes ++ x)))) = loop junk (f + 1) P P.lastKeyPos (.of x) := by
  obtain ⟨k, v, hk, hv, e⟩ := read_tx junk hp h.size h.tx h.done (mapsBytes pre ++ (qs1.flatMap pairBytes ++ x))
  rw [e]
  obtain ⟨pos, hrun⟩ := h.run
  obtain ⟨pos1, ms1, hr1, hr2⟩ := runMaps_append t junk pre _ 0 _ _ _ hrun
  obtain ⟨pos2, ms2, hr3, hr4⟩ := runMaps_split t junk qs1 qs2 post _ _ _ _ hr2
  have hsec := sections_afterTx p t k v vb
  have hls := h.sections
  rw [List.length_append, List.length_cons] at hls
  rw [Nat.zero_add] at hr3 hr4
  have hgp : ∀ m ∈ pre, ∀ q ∈ m, GoodPair q := fun m hm => h.good m (List.mem_append_left _ hm)
  have hg12 : ∀ q ∈ qs1 ++ qs2, GoodPair q := h.good _ (List.mem_append_right _ (List.mem_cons_self ..))
  have hl7 : 5 < (p.afterTx t k v vb).lastKeyPos := by unfold afterTx; dsimp only; omega
  have hlb : (p.afterTx t k v vb).lastKeyPos = 5 + (2 + (varBytes vb).length) := rfl
  obtain ⟨f, hf, hfx⟩ : ∃ f, 2 * (mapsBytes pre ++ (qs1.flatMap pairBytes ++ x)).length + 2 = f + 1 + qs1.length + rounds pre ∧ x.length ≤ f := by
    have h1 := rounds_le pre
    have h2 := rounds_le.pairs_le qs1
    refine ⟨2 * (mapsBytes pre ++ (qs1.flatMap pairBytes ++ x)).length + 2 - 1 - qs1.length - rounds pre, ?_, ?_⟩ <;>
    · simp only [List.length_append]
      omega
  rw [hf]
  obtain ⟨k1, v1, hk1, hv1, hp1, e1⟩ := loop_maps junk pre (f + 1 + qs1.length) (p.afterTx t k v vb) (5 + (2 + (varBytes vb).length)) (qs1.flatMap pairBytes ++ x) pos1 ms1 hk hv hl7
    (by rw [hsec]; show 0 + pre.length ≤ _; omega) hgp hr1
  rw [e1]
  have hpl : pre.length < 256 := by
    have := UInt8.toNat_lt (UInt8.ofNat (1 + t.txIns.length + t.txOuts.length))
    omega
  have hs1 : ((p.afterTx t k v vb).sec + UInt8.ofNat pre.length) = UInt8.ofNat pre.length := by
    show (0 : UInt8) + _ = _
    rw [UInt8.zero_add]
  rw [hs1]
  have htn : (UInt8.ofNat pre.length).toNat = pre.length := by rw [UInt8.toNat_ofNat']; omega
  have hsec1 : ({ p.afterTx t k v vb with key := k1, value := v1, ins := ms1.1, outs := ms1.2, lastKeyPos := pos1, sec := UInt8.ofNat pre.length } : PSBT).sections =
      UInt8.ofNat (1 + t.txIns.length + t.txOuts.length) := by rw [← hsec]; exact sections_eq rfl hl7 (by dsimp only; omega)
  obtain ⟨k2, v2, hk2, hv2, hp2, e2⟩ := loop_pairs junk qs1 (f + 1) { p.afterTx t k v vb with key := k1, value := v1, ins := ms1.1, outs := ms1.2, lastKeyPos := pos1, sec := UInt8.ofNat pre.length }
    (5 + (2 + (varBytes vb).length) + (mapsBytes pre).length) x pos2 ms2 hk1 hv1 (by dsimp only; omega) (by rw [hsec1, UInt8.lt_iff_toNat_lt]; dsimp only; omega)
    (fun q hq => hg12 q (List.mem_append_left _ hq)) (by dsimp only; rw [htn]; exact hr3)
  rw [e2]
  generalize hP : ({ p.afterTx t k v vb with key := k2, value := v2, ins := ms2.1, outs := ms2.2, lastKeyPos := pos2, sec := UInt8.ofNat pre.length } : PSBT) = P
  have hPl : P.lastKeyPos = pos2 := by rw [← hP]
  have hPt : P.tx = t := by rw [← hP]; rfl
  have hPs : P.sec = UInt8.ofNat pre.length := by rw [← hP]
  have hPm : (P.ins, P.outs) = ms2 := by rw [← hP]
  dsimp only at hp2
  have hPsec : P.sections = UInt8.ofNat (1 + t.txIns.length + t.txOuts.length) := by
    rw [← hsec]; exact sections_eq (by rw [hPt]; rfl) hl7 (by omega)
  have hlen : P.lastKeyPos = 5 + (2 + (varBytes vb).length) + (mapsBytes pre).length + (qs1.flatMap pairBytes).length := by omega
  refine ⟨P, f, ⟨hPt, by omega, hPs, hpl, hPsec, pos, by rw [hPl, hPm]; exact hr4⟩, by rw [← hP]; exact hk2, by rw [← hP]; exact hv2, by rw [← hP]; rfl, by rw [← hP]; rfl,
    by rw [hPsec, hPs, UInt8.lt_iff_toNat_lt]; omega, ?_, hfx, by rw [hlen]⟩
  rw [hlen]
  simp only [List.length_append, pairBytes, show (varBytes [0]).length = 2 from rfl, show psbtMagic.length = 5 from rfl]
  omega

/-- A round in which the stream ends inside the key. -/
theorem round_key (p : PSBT) (junk : Bytes) (br : Nat) (hk : p.key.Ready) (hv : p.value.Ready) (w : Bytes) (hw : w ≠ []) (hm : readVar w = .more) :
    ∃ k', k'.Mid w ∧ p.round junk br (.of w) = (({ p with key := k' }, br + w.length, .of []), false) := by
  obtain ⟨k1, e1, h1⟩ := Script.ready_more hk hw hm
  obtain ⟨h4, h5, h6⟩ := h1.again hm
  refine ⟨(k1.fromStream (.of [])).1, h4, ?_⟩
  have hst := h1.status
  have hst2 := h4.status
  unfold round
  rw [if_pos ⟨hk.1, hv.1⟩]
  unfold parseKey
  rw [e1]
  dsimp only
  rw [if_neg (fun h => by rw [hst] at h; cases h.1), if_neg (by rw [hst]; simp)]
  unfold roundRetry
  dsimp only
  rw [if_neg (by rw [hst, hv.1]; simp), if_neg (by rw [hst, hv.1]; simp), if_pos hst]
  unfold parseKey
  dsimp only
  rw [if_neg (by rw [hv.1]; simp)]
  unfold roundAdd
  dsimp only
  rw [if_neg (by rw [hst2, hv.1]; simp), if_neg (by rw [hst2]; simp), h6, h5, Nat.add_zero]

/-- A key that is cut is dropped; the loop goes on with what follows it, the value. -/
theorem key_lost (junk : Nat → Bytes) {p : PSBT} (hp : p.Clean) {vb : Bytes} {pre post : List (List Pair)} {qs1 qs2 : List Pair} {t : Tx}
    {ms : List InMeta × List OutMeta} (h : Accepts junk p vb (pre ++ (qs1 ++ qs2) :: post) t ms) {k x y : Bytes} (hk : k.length < 2 ^ 31) (hx : x ≠ []) (hy : y ≠ [])
    (hxy : x ++ y = varBytes k) (rest : Bytes) :
    ∃ q, fromStream junk p (.of (psbtMagic ++ pairBytes ([0], vb) ++ (mapsBytes pre ++ (qs1.flatMap pairBytes ++ x)))) =
        (q, (psbtMagic ++ pairBytes ([0], vb) ++ (mapsBytes pre ++ (qs1.flatMap pairBytes ++ x))).length, .of []) ∧ q.status = .incomplete ∧
      Parsed (fromStream junk q (.of (y ++ (mapsBytes (qs2 :: post) ++ rest)))) t ms (y ++ mapsBytes (qs2 :: post)).length rest := by
  obtain ⟨P, f, hB, hPk, hPv, hPst, hPb, hPlt, hPl, -, e⟩ := before_cut junk hp h x
  have hP5 := hB.pos
  have hm : readVar x = .more := readVar_prefix hxy hk hy
  obtain ⟨k', hmid, hr⟩ := round_key P (junk P.lastKeyPos) P.lastKeyPos hPk hPv x hx hm
  have hsecK := sections_eq (p := P) (q := { P with key := k' }) rfl hP5 hP5
  have hfin := finishAll_more { P with key := k' } (P.lastKeyPos + x.length) (.of []) (by rw [hsecK]; exact hPlt) hPst
  rw [loop, if_pos ⟨by rw [PStream.avail_of]; simpa using hx, hPlt⟩, hr] at e
  dsimp only at e
  rw [loop_empty, hfin] at e
  have hlen : P.lastKeyPos + x.length = (psbtMagic ++ pairBytes ([0], vb) ++ (mapsBytes pre ++ (qs1.flatMap pairBytes ++ x))).length := by
    rw [hPl]; simp only [List.length_append]; omega
  rw [hPb, Nat.zero_add] at e
  refine ⟨{ P with key := k', bytesParsed := P.lastKeyPos + x.length }, by rw [e, hlen], hPst, ?_⟩
  rw [fromStream_again junk { P with key := k', bytesParsed := P.lastKeyPos + x.length } hPst (by dsimp only; omega)]
  unfold readGlobal
  have hxl := List.length_pos_of_ne_nil hx
  rw [if_neg (by dsimp only; omega)]
  have hlen2 := congrArg List.length hxy
  rw [List.length_append] at hlen2
  obtain ⟨k2, e2, h3, h4⟩ := Script.mid_var (c := y ++ (mapsBytes (qs2 :: post) ++ rest)) hmid k (mapsBytes (qs2 :: post) ++ rest) hk (by rw [← List.append_assoc, hxy]) (by omega)
  unfold globalKey
  rw [if_pos ⟨by rw [PStream.avail_of]; simp [hy], hmid.status⟩]
  unfold parseKey
  dsimp only
  rw [e2]
  dsimp only
  rw [if_neg (by rw [h3]; simp), if_neg (by rw [h3]; simp)]
  unfold globalValue
  rw [if_neg (by dsimp only; rw [hPv.1]; simp)]
  dsimp only
  rw [if_neg (by rw [hPv.1]; simp), if_neg (by rw [hPv.1]; simp)]
  unfold afterGlobal
  rw [if_neg (by dsimp only; omega)]
  have hyl : 0 + ((varBytes k).length - x.length) = y.length := by omega
  rw [hyl]
  have hls := h.sections
  rw [List.length_append, List.length_cons] at hls
  have hg12 : ∀ q ∈ qs1 ++ qs2, GoodPair q := h.good _ (List.mem_append_right _ (List.mem_cons_self ..))
  have hPsec := hB.sections
  have hPs := hB.sec
  have hPt := hB.tx
  have hpl := hB.small
  have htn : (UInt8.ofNat pre.length).toNat = pre.length := by rw [UInt8.toNat_ofNat']; omega
  obtain ⟨pos, hr4⟩ := hB.run
  have hQsec : ({ P with key := k2, bytesParsed := P.lastKeyPos + x.length } : PSBT).sections = UInt8.ofNat (1 + t.txIns.length + t.txOuts.length) := by
    rw [← hPsec]; exact sections_eq rfl (by omega) (by dsimp only; omega)
  have l5 := loop_complete junk (2 * (mapsBytes (qs2 :: post) ++ rest).length + 2) { P with key := k2, bytesParsed := P.lastKeyPos + x.length } y.length
    (qs2 :: post) rest pos ms (script_ready_holds _ _ h3 h4) hPv hPst (by dsimp only; omega) (by
      rw [hQsec, gt_iff_lt, UInt8.lt_iff_toNat_lt, ← h.sections]; exact h.pos)
    (by rw [hQsec]; dsimp only; rw [hPs, htn, List.length_cons]; omega)
    (by
      intro m hm
      rcases List.mem_cons.mp hm with rfl | hm
      · exact fun q hq => hg12 q (List.mem_append_right _ hq)
      · exact h.good m (List.mem_append_right _ (List.mem_cons_of_mem _ hm)))
    (by rw [List.length_append]; omega) (by dsimp only; rw [hPs, htn, hPt]; exact hr4)
  refine ⟨l5.status, by rw [← hPt]; exact l5.tx, l5.ins, l5.outs, l5.key, l5.value, ?_, l5.stream⟩
  have h7 := l5.read
  simp only [List.length_append] at h7 ⊢
  omega

private theorem inv_bind {α β : Type} {x : C α} {f : α → C β} {b : β} (h : (x >>= f) = .ok b) : ∃ a, x = .ok a ∧ f a = .ok b := by
  cases x with
  | ub => cases h
  | ok a => exact ⟨a, rfl, h⟩

/-- The value which the object keeps from a complete pair. -/
theorem add_value {p q : PSBT} {junk : Bytes} {sec : UInt8} {k v : Script} {r : Int} (h : p.add junk sec k v = .ok (r, q)) : q.value = p.value := by
  unfold add at h
  split_ifs at h
  · cases h; rfl
  · obtain ⟨ka, -, h⟩ := inv_bind h
    obtain ⟨va, -, h⟩ := inv_bind h
    obtain ⟨c, -, h⟩ := inv_bind h
    split at h
    · obtain ⟨⟨r', m'⟩, -, h⟩ := inv_bind h
      cases h
      rfl
    · cases h
  · obtain ⟨ka, -, h⟩ := inv_bind h
    obtain ⟨va, -, h⟩ := inv_bind h
    obtain ⟨c, -, h⟩ := inv_bind h
    split at h
    · obtain ⟨⟨r', m'⟩, -, h⟩ := inv_bind h
      cases h
      rfl
    · cases h

theorem round_value {p : PSBT} {junk : Bytes} {br : Nat} {k v tail : Bytes} {q : PSBT} {n : Nat} {s : PStream} (hk : p.key.Ready) (hv : p.value.Ready) (hk0 : k ≠ [])
    (hkl : k.length < 2 ^ 31) (hvl : v.length < 2 ^ 31) (h : p.round junk br (.of (varBytes k ++ (varBytes v ++ tail))) = ((q, n, s), false)) :
    q.value = (p.value.fromStream (.of (varBytes v ++ tail))).1 := by
  obtain ⟨k', e1, h1, h2⟩ := Script.ready_var hk k (varBytes v ++ tail) hkl
  obtain ⟨v', e2, h3, h4⟩ := Script.ready_var hv v tail hvl
  unfold round at h
  rw [if_pos ⟨hk.1, hv.1⟩] at h
  unfold parseKey at h
  rw [e1] at h
  dsimp only at h
  rw [if_neg (fun h => hk0 ((Script.length_one h2 (by omega)).mp h.2)), if_pos h1] at h
  unfold parseValue at h
  dsimp only at h
  rw [e2] at h
  dsimp only at h
  unfold roundRetry at h
  dsimp only at h
  rw [if_neg (by rw [h1, h3]; simp), if_neg (by rw [h1, h3]; simp), if_neg (show ¬ k'.status = .incomplete by rw [h1]; simp)] at h
  dsimp only at h
  rw [if_neg (show ¬ v'.status = .incomplete by rw [h3]; simp)] at h
  unfold roundAdd at h
  dsimp only at h
  rw [if_neg (by rw [h1, h3]; simp), if_pos ⟨h1, h3⟩] at h
  split at h
  · cases h
  · rename_i r q' hadd
    split_ifs at h
    · cases h
    · have hq : q.value = q'.value := by cases h; rfl
      rw [hq, add_value hadd, e2]

/-- A round with a complete pair that `add` accepts. -/
theorem round_pair {junk : Nat → Bytes} {p : PSBT} {br : Nat} {q0 : Pair} (hg : GoodPair q0) (hk : p.key.Ready) (hv : p.value.Ready) {pos : Nat} {ms : List InMeta × List OutMeta}
    (hr : runMap p.tx junk p.sec.toNat [q0] p.lastKeyPos (p.ins, p.outs) = .ok (some (pos, ms))) (tail : Bytes) :
    ∃ k v, k.Ready ∧ v.Ready ∧ v = (p.value.fromStream (.of (varBytes q0.2 ++ tail))).1 ∧ p.round (junk p.lastKeyPos) br (.of (pairBytes q0 ++ tail)) =
      (({ p with key := k, value := v, ins := ms.1, outs := ms.2, lastKeyPos := p.lastKeyPos + ((varBytes q0.1).length + (varBytes q0.2).length) },
        br + ((varBytes q0.1).length + (varBytes q0.2).length), .of tail), false) := by
  obtain ⟨k0, v0⟩ := q0
  obtain ⟨g1, g2, g3⟩ := hg
  dsimp only at g1 g2 g3 ⊢
  have e0 : pairBytes (k0, v0) ++ tail = varBytes k0 ++ (varBytes v0 ++ tail) := by
    rw [pairBytes]; simp only [List.append_assoc]
  have hrd : readVar (varBytes k0 ++ (varBytes v0 ++ tail)) = .ok k0 (varBytes v0 ++ tail) := readVar_varBytes k0 _ g2
  have hrd2 : readVar (varBytes v0 ++ tail) = .ok v0 tail := readVar_varBytes v0 _ g3
  have hcne : varBytes k0 ++ (varBytes v0 ++ tail) ≠ [] := by
    intro h
    rw [h] at hrd
    cases hrd
  rw [e0]
  unfold runMap at hr
  have hro := round_out p (junk p.lastKeyPos) br _ hcne hk hv
  have hval := fun q n s => round_value (q := q) (n := n) (s := s) (junk := junk p.lastKeyPos) (br := br) (tail := tail) hk hv g1 g2 g3
  generalize p.round (junk p.lastKeyPos) br (.of (varBytes k0 ++ (varBytes v0 ++ tail))) = x at hro hval ⊢
  cases hro with
  | delim r k hk' hc => rw [hrd] at hc; cases hc; exact absurd rfl g1
  | pair kb vb r r' k v hk' hv' hc hne hr' res ms' ha h0 =>
    rw [hrd] at hc
    cases hc
    rw [hrd2] at hr'
    cases hr'
    rw [ha, C.bind_ok] at hr
    dsimp only at hr ⊢
    rw [if_neg (by omega)] at hr
    unfold runMap at hr
    cases hr
    exact ⟨k, v, hk', hv', hval _ _ _ rfl, rfl⟩
  | refused kb vb r r' q hc hne hr' ha hq =>
    exfalso
    rw [hrd] at hc
    cases hc
    rw [hrd2] at hr'
    cases hr'
    cases hadd : addM p.tx (junk p.lastKeyPos) p.sec.toNat (p.ins, p.outs) k0 v0 with
    | ub => rw [hadd, C.bind_ub] at hr; cases hr
    | ok y =>
      obtain ⟨res, ms'⟩ := y
      have := ha res ms' hadd
      rw [hadd, C.bind_ok] at hr
      dsimp only at hr
      rw [if_pos this, C.pure_eq] at hr
      cases hr
  | stopped q hc hq _ =>
    rw [hrd] at hc
    rcases hc with hc | ⟨kb, r, hc, hne, h⟩
    · cases hc
    · cases hc
      exact absurd hrd2 (h _ _)
  | more q n hc hs' ht hsec hpos =>
    rw [hrd] at hc
    rcases hc with hc | ⟨kb, r, hc, hne, h⟩
    · cases hc
    · cases hc
      rw [hrd2] at h
      cases h

theorem read_len {sc : Script} (h : sc.Ready) (d r : Bytes) (hd : d.length < 2 ^ 31) : (sc.fromStream (.of (varBytes d ++ r))).1.scriptLen = d.length := by
  obtain ⟨sc', e, -, h2⟩ := Script.ready_var h d r hd
  rw [e]
  exact h2.1

/-- A script object with bytes in it, asked to parse when there is nothing to read, fails. -/
theorem empty_fails {sc : Script} (hr : sc.Ready) (hl : 0 < sc.scriptLen) : (sc.fromStream (.of [])).1.status = .failed ∧ (sc.fromStream (.of [])).2.2 = .of [] := by
  have hs : sc.start = { sc with status := .incomplete, bytesParsed := 0, arr := [], scriptLen := 0, lenLen := 0 } := by
    unfold Script.start Script.clear
    dsimp only
    rw [if_pos hr.1, if_pos hl]
  unfold Script.fromStream
  rw [if_neg (by rw [hr.1]; simp), hs]
  unfold Script.readPrefix
  rw [if_neg (by simp)]
  exact ⟨rfl, rfl⟩

/-- A round in which the stream ends between a key and its value. -/
theorem round_between (p : PSBT) (junk : Bytes) (br : Nat) (hk : p.key.Ready) (hv : p.value.Ready) (hl : 0 < p.value.scriptLen) (k : Bytes) (hk0 : k ≠ [])
    (hkl : k.length < 2 ^ 31) : ∃ q n, p.round junk br (.of (varBytes k)) = ((q, n, .of []), true) ∧ q.status = .failed := by
  obtain ⟨k', e1, h1, h2⟩ := Script.ready_var hk k [] hkl
  rw [List.append_nil] at e1
  obtain ⟨f1, f2⟩ := empty_fails hv hl
  unfold round
  rw [if_pos ⟨hk.1, hv.1⟩]
  unfold parseKey
  rw [e1]
  dsimp only
  rw [if_neg (fun h => hk0 ((Script.length_one h2 (by omega)).mp h.2)), if_pos h1]
  unfold parseValue
  dsimp only
  unfold roundRetry
  dsimp only
  rw [if_neg (by rw [f1, h1]; simp), if_pos (Or.inr f1), f2]
  exact ⟨_, _, rfl, rfl⟩

end PSBT

/-- C74: one cut between a key and its value, after a pair whose value is not empty: the parse fails, and stays failed whatever comes next. -/
theorem C74_between_fails (junk : Nat → Bytes) {p : PSBT} (hp : p.Clean) (d : PsbtDoc) (hd : d.Ok) {pre post : List (List Pair)} {qs1 qs2 : List Pair} {q1 q0 : Pair}
    (hm : d.maps = pre ++ (qs1 ++ q1 :: q0 :: qs2) :: post) (h1 : q1.2 ≠ []) (cs : List Bytes) :
    (feedPieces (PSBT.fromStream junk) (·.status) p
      ((psbtMagic ++ pairBytes ([0], txBytes d.tx) ++ mapsBytes pre ++ qs1.flatMap pairBytes ++ pairBytes q1 ++ varBytes q0.1) :: cs)).1.status = .failed := by
  have hgood := hd.good
  obtain ⟨t, ms, ha, -⟩ := PSBT.accepts_of_ok junk hp hd
  rw [hm] at ha hgood
  have hgm := hgood (qs1 ++ q1 :: q0 :: qs2) (by simp)
  have hg1 := hgm q1 (by simp)
  have hg0 := hgm q0 (by simp)
  obtain ⟨P, f, hB, hPk, hPv, hPst, hPb, hPlt, hPl, hf, e⟩ := PSBT.before_cut junk hp ha (pairBytes q1 ++ varBytes q0.1)
  have hA : psbtMagic ++ pairBytes ([0], txBytes d.tx) ++ mapsBytes pre ++ qs1.flatMap pairBytes ++ pairBytes q1 ++ varBytes q0.1 =
      psbtMagic ++ pairBytes ([0], txBytes d.tx) ++ (mapsBytes pre ++ (qs1.flatMap pairBytes ++ (pairBytes q1 ++ varBytes q0.1))) := by
    simp only [List.append_assoc]
  have key : (PSBT.fromStream junk p (.of (psbtMagic ++ pairBytes ([0], txBytes d.tx) ++ (mapsBytes pre ++ (qs1.flatMap pairBytes ++ (pairBytes q1 ++ varBytes q0.1)))))).1.status = .failed := by
    rw [e]
    obtain ⟨pos, hrun⟩ := hB.run
    obtain ⟨pos1, ms1, hr1, -⟩ := PSBT.runMaps_split t junk [q1] (q0 :: qs2) post _ _ _ _ hrun
    have htn : P.sec.toNat = pre.length := by rw [hB.sec, UInt8.toNat_ofNat']; have := hB.small; omega
    obtain ⟨f', rfl⟩ : ∃ f', f = f' + 1 := ⟨f - 1, by
      have := List.length_pos_of_ne_nil hg0.1
      unfold varBytes at hf
      simp only [List.length_append] at hf
      omega⟩
    obtain ⟨k, v, hk, hv, hvl, hr⟩ := PSBT.round_pair (br := P.lastKeyPos) hg1 hPk hPv (by rw [htn, hB.tx]; exact hr1) (varBytes q0.1)
    have hne : varBytes q0.1 ≠ [] := by
      intro h
      have h2 := List.append_eq_nil_iff.mp h
      exact hg0.1 h2.2
    rw [PSBT.loop, if_pos ⟨by rw [PStream.avail_of]; simpa using fun _ => hne, hPlt⟩, hr]
    dsimp only
    have hP5 := hB.pos
    generalize hP' : ({ P with key := k, value := v, ins := ms1.1, outs := ms1.2, lastKeyPos := P.lastKeyPos + ((varBytes q1.1).length + (varBytes q1.2).length) } : PSBT) = P'
    have hsec : P'.sections = P.sections := PSBT.sections_eq (by rw [← hP']) hP5 (by rw [← hP']; dsimp only; omega)
    have hs' : P'.sec = P.sec := by rw [← hP']
    obtain ⟨q, n, hb, hfail⟩ := PSBT.round_between P' (junk P'.lastKeyPos) (P.lastKeyPos + ((varBytes q1.1).length + (varBytes q1.2).length)) (by rw [← hP']; exact hk) (by rw [← hP']; exact hv)
      (by rw [← hP']; dsimp only; rw [hvl, PSBT.read_len hPv _ _ hg1.2.2]; exact List.length_pos_of_ne_nil h1) q0.1 hg0.1 hg0.2.1
    rw [PSBT.loop, if_pos ⟨by rw [PStream.avail_of]; simpa using hne, by rw [hsec, hs']; exact hPlt⟩, hb]
    exact hfail
  rw [← hA] at key
  unfold feedPieces
  dsimp only
  rw [if_neg (by rw [key]; simp)]
  exact key

/-- C74: one cut between the first key of a map and its value, when the map before ends with a pair whose value is not empty: the parse fails as well. -/
theorem C74_between_first_fails (junk : Nat → Bytes) {p : PSBT} (hp : p.Clean) (d : PsbtDoc) (hd : d.Ok) {pre post : List (List Pair)} {qs1 qs2 : List Pair} {q1 q0 : Pair}
    (hm : d.maps = pre ++ (qs1 ++ [q1]) :: (q0 :: qs2) :: post) (h1 : q1.2 ≠ []) (cs : List Bytes) :
    (feedPieces (PSBT.fromStream junk) (·.status) p
      ((psbtMagic ++ pairBytes ([0], txBytes d.tx) ++ mapsBytes pre ++ qs1.flatMap pairBytes ++ pairBytes q1 ++ [0] ++ varBytes q0.1) :: cs)).1.status = .failed := by
  have hgood := hd.good
  obtain ⟨t, ms, ha, -⟩ := PSBT.accepts_of_ok junk hp hd
  rw [hm] at ha hgood
  have hg1 := hgood (qs1 ++ [q1]) (by simp) q1 (by simp)
  have hg0 := hgood (q0 :: qs2) (by simp) q0 (by simp)
  obtain ⟨P, f, hB, hPk, hPv, hPst, hPb, hPlt, hPl, hf, e⟩ := PSBT.before_cut junk hp ha (pairBytes q1 ++ 0 :: varBytes q0.1)
  have hA : psbtMagic ++ pairBytes ([0], txBytes d.tx) ++ mapsBytes pre ++ qs1.flatMap pairBytes ++ pairBytes q1 ++ [0] ++ varBytes q0.1 =
      psbtMagic ++ pairBytes ([0], txBytes d.tx) ++ (mapsBytes pre ++ (qs1.flatMap pairBytes ++ (pairBytes q1 ++ 0 :: varBytes q0.1))) := by
    simp only [List.append_assoc, List.cons_append, List.nil_append]
  have key : (PSBT.fromStream junk p (.of (psbtMagic ++ pairBytes ([0], txBytes d.tx) ++ (mapsBytes pre ++ (qs1.flatMap pairBytes ++ (pairBytes q1 ++ 0 :: varBytes q0.1)))))).1.status = .failed := by
    rw [e]
    obtain ⟨pos, hrun⟩ := hB.run
    obtain ⟨pos1, ms1, hr1, -⟩ := PSBT.runMaps_split t junk [q1] [] ((q0 :: qs2) :: post) _ _ _ _ hrun
    have htn : P.sec.toNat = pre.length := by rw [hB.sec, UInt8.toNat_ofNat']; have := hB.small; omega
    obtain ⟨f', rfl⟩ : ∃ f', f = f' + 1 + 1 := ⟨f - 2, by
      have := List.length_pos_of_ne_nil hg0.1
      unfold varBytes at hf
      simp only [List.length_append, List.length_cons] at hf
      omega⟩
    obtain ⟨k, v, hk, hv, hvl, hr⟩ := PSBT.round_pair (br := P.lastKeyPos) hg1 hPk hPv (by rw [htn, hB.tx]; exact hr1) (0 :: varBytes q0.1)
    have hne : varBytes q0.1 ≠ [] := by
      intro h
      have h2 := List.append_eq_nil_iff.mp h
      exact hg0.1 h2.2
    rw [PSBT.loop, if_pos ⟨by rw [PStream.avail_of]; simp, hPlt⟩, hr]
    dsimp only
    have hP5 := hB.pos
    generalize hP' : ({ P with key := k, value := v, ins := ms1.1, outs := ms1.2, lastKeyPos := P.lastKeyPos + ((varBytes q1.1).length + (varBytes q1.2).length) } : PSBT) = P'
    have hsec : P'.sections = P.sections := PSBT.sections_eq (by rw [← hP']) hP5 (by rw [← hP']; dsimp only; omega)
    have hs' : P'.sec = P.sec := by rw [← hP']
    obtain ⟨k2, hk2, e2⟩ := PSBT.loop_delim junk (f' + 1) P' (P.lastKeyPos + ((varBytes q1.1).length + (varBytes q1.2).length)) (varBytes q0.1) (by rw [← hP']; exact hk)
      (by rw [← hP']; exact hv) (by rw [hsec, hs']; exact hPlt)
    rw [e2]
    have hls := ha.sections
    rw [List.length_append, List.length_cons, List.length_cons] at hls
    generalize hP2 : ({ P' with key := k2, sec := P'.sec + 1, lastKeyPos := P'.lastKeyPos + 1 } : PSBT) = P2
    have hP5' : 5 < P'.lastKeyPos := by rw [← hP']; dsimp only; omega
    have hsec2 : P2.sections = P'.sections := PSBT.sections_eq (by rw [← hP2]) hP5' (by rw [← hP2]; dsimp only; omega)
    have hlt2 : P2.sec < P2.sections := by
      have h3 : P2.sec = P.sec + 1 := by rw [← hP2, ← hs']
      have := UInt8.toNat_lt (UInt8.ofNat (1 + t.txIns.length + t.txOuts.length))
      have h4 : (1 : UInt8).toNat = 1 := rfl
      rw [hsec2, hsec, h3, hB.sections, UInt8.lt_iff_toNat_lt, UInt8.toNat_add, htn]
      omega
    obtain ⟨q, n, hb, hfail⟩ := PSBT.round_between P2 (junk P2.lastKeyPos) (P.lastKeyPos + ((varBytes q1.1).length + (varBytes q1.2).length) + 1) (by rw [← hP2]; exact hk2)
      (by rw [← hP2, ← hP']; exact hv) (by rw [← hP2, ← hP']; dsimp only; rw [hvl, PSBT.read_len hPv _ _ hg1.2.2]; exact List.length_pos_of_ne_nil h1) q0.1 hg0.1 hg0.2.1
    rw [PSBT.loop, if_pos ⟨by rw [PStream.avail_of]; simpa using hne, hlt2⟩, hb]
    exact hfail
  rw [← hA] at key
  unfold feedPieces
  dsimp only
  rw [if_neg (by rw [key]; simp)]
  exact key

/-- C74: one cut inside a key `k` (after its first byte, before its last): the key is dropped without notice, and what follows it - its value first - is
read as pairs.  If that happens to be the rest of a document `d`, the parse ends DONE and the object holds `d`. -/
theorem C74_key_lost (junk : Nat → Bytes) {p : PSBT} (hp : p.Clean) (d : PsbtDoc) (hd : d.Ok) {pre post : List (List Pair)} {qs1 qs2 : List Pair}
    (hm : d.maps = pre ++ (qs1 ++ qs2) :: post) (k : Bytes) (hk : k.length < 2 ^ 31) (rest a b : Bytes)
    (hab : a ++ b = psbtMagic ++ pairBytes ([0], txBytes d.tx) ++ mapsBytes pre ++ qs1.flatMap pairBytes ++ (varBytes k ++ (mapsBytes (qs2 :: post) ++ rest)))
    (hcut : (psbtMagic ++ pairBytes ([0], txBytes d.tx) ++ mapsBytes pre ++ qs1.flatMap pairBytes).length < a.length ∧
      a.length < (psbtMagic ++ pairBytes ([0], txBytes d.tx) ++ mapsBytes pre ++ qs1.flatMap pairBytes).length + (varBytes k).length) :
    (feedPieces (PSBT.fromStream junk) (·.status) p [a, b]).1.status = .done ∧ (feedPieces (PSBT.fromStream junk) (·.status) p [a, b]).1.Holds d ∧
    (feedPieces (PSBT.fromStream junk) (·.status) p [a, b]).2 + rest.length = (a ++ b).length := by
  obtain ⟨t, ms, ha, hh⟩ := PSBT.accepts_of_ok junk hp hd
  rw [hm] at ha
  generalize hH : psbtMagic ++ pairBytes ([0], txBytes d.tx) ++ mapsBytes pre ++ qs1.flatMap pairBytes = H at hcut hab
  obtain ⟨x, rfl, e1⟩ := split_left hab (by omega)
  rw [List.length_append] at hcut
  obtain ⟨y, hy, hb⟩ := split_left e1.symm (by omega)
  subst hb
  have h5 := congrArg List.length hy
  rw [List.length_append] at h5
  have hA : H ++ x = psbtMagic ++ pairBytes ([0], txBytes d.tx) ++ (mapsBytes pre ++ (qs1.flatMap pairBytes ++ x)) := by
    rw [← hH]; simp only [List.append_assoc]
  obtain ⟨q, hq, hst, hpar⟩ := PSBT.key_lost junk hp ha hk (x := x) (y := y) (by rintro rfl; simp at hcut) (by rintro rfl; rw [List.length_nil] at h5; omega) hy.symm rest
  rw [← hA] at hq
  unfold feedPieces
  rw [hq]
  dsimp only
  rw [if_pos hst]
  unfold feedPieces
  dsimp only
  rw [if_neg (by rw [hpar.status]; simp)]
  refine ⟨hpar.status, hh _ hpar.tx hpar.ins hpar.outs, ?_⟩
  dsimp only
  rw [hpar.read]
  simp only [List.length_append]
  omega

/-- C74: one cut just before the end mark of a map: the mark is dropped together with the string that follows it (the first key of the next map, or its end
mark), and the pairs behind that are added to the map which had ended.  If they happen to be the rest of a document `d`, the parse ends DONE and the object holds `d`. -/
theorem C74_mark_lost (junk : Nat → Bytes) {p : PSBT} (hp : p.Clean) (d : PsbtDoc) (hd : d.Ok) {pre post : List (List Pair)} {qs1 qs2 : List Pair}
    (hm : d.maps = pre ++ (qs1 ++ qs2) :: post) (k : Bytes) (hk : k.length < 2 ^ 31) (rest : Bytes) {a b : Bytes}
    (ha : a = psbtMagic ++ pairBytes ([0], txBytes d.tx) ++ mapsBytes pre ++ qs1.flatMap pairBytes) (hb : b = [0] ++ varBytes k ++ (mapsBytes (qs2 :: post) ++ rest)) :
    (feedPieces (PSBT.fromStream junk) (·.status) p [a, b]).1.status = .done ∧ (feedPieces (PSBT.fromStream junk) (·.status) p [a, b]).1.Holds d ∧
    (feedPieces (PSBT.fromStream junk) (·.status) p [a, b]).2 + rest.length = (a ++ b).length := by
  obtain ⟨t, ms, hacc, hh⟩ := PSBT.accepts_of_ok junk hp hd
  rw [hm] at hacc
  have hA : a = psbtMagic ++ pairBytes ([0], txBytes d.tx) ++ (mapsBytes pre ++ (qs1.flatMap pairBytes ++ [])) := by
    rw [ha]; simp only [List.append_assoc, List.append_nil]
  have hc : PSBT.CutAt ([], k) [] ([0] ++ varBytes k) := Or.inl ⟨rfl, rfl⟩
  have hg : PSBT.Droppable ([], k) [] := ⟨fun h => absurd rfl h, by simp, hk⟩
  obtain ⟨hst, hpar⟩ := PSBT.pair_lost junk hp hacc hg hc rest rfl
  obtain ⟨-, -, -, -, hn⟩ := PSBT.first_call junk hp hacc hg hc rfl
  rw [← hA] at hst hpar hn
  rw [← hb] at hpar
  unfold feedPieces
  dsimp only
  rw [if_pos hst]
  unfold feedPieces
  dsimp only
  rw [if_neg (by rw [hpar.status]; simp)]
  refine ⟨hpar.status, hh _ hpar.tx hpar.ins hpar.outs, ?_⟩
  dsimp only
  rw [hn, hpar.read, hb]
  simp only [List.length_append]
  omega

/-! ### Examples -/

/-- The first piece of `exDoc` ends between the first key of the input and its value. -/
example (junk : Nat → Bytes) (cs : List Bytes) : (feedPieces (PSBT.fromStream junk) (·.status) {}
    ((psbtMagic ++ pairBytes ([0], txBytes exDoc.tx) ++ mapsBytes [] ++ ([] : List Pair).flatMap pairBytes ++ pairBytes ([0xfc, 1], [5]) ++ [0] ++
      varBytes (InField.prevTx exTxSpec).pair.1) :: cs)).1.status = .failed :=
  C74_between_first_fails junk PSBT.clean_fresh exDoc exDoc_ok (pre := []) (qs1 := []) (q1 := ([0xfc, 1], [5])) (q0 := (InField.prevTx exTxSpec).pair)
    (qs2 := ([.redeemScript [0x51], .origin exOrigin, .partialSig exSigEntry, .other ([9, 9], [])] : List InField).map InField.pair) (post := exDoc.outs.map (·.map OutField.pair)) rfl
    (by simp) cs

/-- The first piece of `exDoc` ends between the key of the redeem script and its value. -/
example (junk : Nat → Bytes) (cs : List Bytes) : (feedPieces (PSBT.fromStream junk) (·.status) {}
    ((psbtMagic ++ pairBytes ([0], txBytes exDoc.tx) ++ mapsBytes [exDoc.globals] ++ ([] : List Pair).flatMap pairBytes ++ pairBytes (InField.prevTx exTxSpec).pair ++
      varBytes (InField.redeemScript [0x51]).pair.1) :: cs)).1.status = .failed := by
  have h := C74_between_fails junk PSBT.clean_fresh exDoc exDoc_ok (pre := [exDoc.globals]) (qs1 := []) (q1 := (InField.prevTx exTxSpec).pair) (q0 := (InField.redeemScript [0x51]).pair)
    (qs2 := ([.origin exOrigin, .partialSig exSigEntry, .other ([9, 9], [])] : List InField).map InField.pair) (post := exDoc.outs.map (·.map OutField.pair)) rfl (by
      intro h
      rw [InField.pair] at h
      unfold txBytes at h
      have := congrArg List.length h
      by_cases hw : hasWitness exTxSpec
      · rw [if_pos hw] at this
        simp [segwitBytes, length_leBytes] at this
      · rw [if_neg hw] at this
        simp [legacyBytes, length_leBytes] at this) cs
  exact h

/-- The key `[4, 7]`, cut after its length, in front of the first input map of `exDoc`: it is read as if it were not there. -/
example (junk : Nat → Bytes) : (feedPieces (PSBT.fromStream junk) (·.status) {}
    [psbtMagic ++ pairBytes ([0], txBytes exDoc.tx) ++ mapsBytes [exDoc.globals] ++ [2], [4, 7] ++ mapsBytes exDoc.maps.tail]).1.Holds exDoc := by
  refine (C74_key_lost junk PSBT.clean_fresh exDoc exDoc_ok (pre := [exDoc.globals]) (qs1 := [])
    (qs2 := [InField.prevTx exTxSpec, .redeemScript [0x51], .origin exOrigin, .partialSig exSigEntry, .other ([9, 9], [])].map InField.pair)
    (post := exDoc.outs.map (·.map OutField.pair)) rfl [4, 7] (by decide) [] _ _ ?_ ?_).2.1
  · rw [show varBytes [4, 7] = [2] ++ [4, 7] from rfl]
    simp only [List.flatMap_nil, List.append_nil, List.append_assoc]
    rfl
  · rw [show varBytes [4, 7] = [2] ++ [4, 7] from rfl]
    simp only [List.flatMap_nil, List.append_nil, List.length_append, List.length_cons, List.length_nil]
    omega

/-- Behind the global map there is an empty map for the input and an empty map for the output: the document ends there.  If the first piece ends before the end
mark of the global map, the code goes on reading, and the object holds the fields of `exDoc`. -/
example (junk : Nat → Bytes) : (feedPieces (PSBT.fromStream junk) (·.status) {}
    [psbtMagic ++ pairBytes ([0], txBytes exDoc.tx) ++ mapsBytes [] ++ exDoc.globals.flatMap pairBytes, [0] ++ [0] ++ ([0] ++ mapsBytes exDoc.maps.tail)]).1.Holds exDoc :=
  (C74_mark_lost junk PSBT.clean_fresh exDoc exDoc_ok (pre := []) (qs1 := exDoc.globals) (qs2 := []) (post := exDoc.maps.tail) (by rw [List.append_nil]; rfl) [] (by decide) []
    rfl (by rw [List.append_nil]; rfl)).2.1

end UB
