import Verif.Props.PSBTKeyCut

/-
C74 (continued): a cut between a key and its value, after a pair with an empty value.
-/

namespace UB
open Spec

namespace Script

theorem alloc_lenLen (sc : Script) (br : Nat) (s : PStream) : (sc.alloc br s).1.lenLen = sc.lenLen := by
  unfold alloc readBody
  dsimp only
  split_ifs <;> first | rfl | (split <;> rfl)

theorem start_again {sc : Script} (h : sc.status = .done) (s : PStream) : sc.start.fromStream s = sc.fromStream s := by
  have h1 : sc.start.status = .incomplete := rfl
  have h2 : sc.start.start = sc.start := by
    generalize hx : sc.start = x at h1
    unfold start
    rw [if_neg (by rw [h1]; simp)]
    cases x
    simp_all
  unfold fromStream
  rw [if_neg (by rw [h1]; simp), if_neg (by rw [h]; simp), h2]

/-- An object which holds the empty string that was read last: its prefix was one byte long. -/
theorem read_empty {sc : Script} (h : sc.Ready) (r : Bytes) : (sc.fromStream (.of (varBytes [] ++ r))).1.lenLen = 1 := by
  obtain ⟨h1, h2, h3⟩ := start_ready sc h
  have e : varBytes [] ++ r = 0 :: r := rfl
  unfold fromStream
  rw [if_neg (by rw [h.1]; simp), e]
  unfold readPrefix
  rw [if_pos ⟨by rw [PStream.avail_of]; rfl, h2⟩]
  have hb : (PStream.of (0 :: r)).readByte = (0, .of r) := rfl
  rw [hb]
  dsimp only
  rw [if_pos (by decide)]
  dsimp only
  rw [h2]
  rw [show 1 - (0 + 1) = 0 from rfl, lenLoop]
  dsimp only
  rw [alloc_lenLen]

/-- Such an object, asked to parse when there is nothing to read, waits for the first byte. -/
theorem empty_waits {sc : Script} (hr : sc.Ready) (h0 : sc.scriptLen = 0) (h1 : sc.lenLen = 1) : sc.fromStream (.of []) = (sc.start, 0, .of []) := by
  have harr : sc.arr = [] := List.eq_nil_of_length_eq_zero (by rw [hr.2, h0])
  have hs : sc.start = { sc with status := .incomplete, bytesParsed := 0 } := by
    unfold start clear
    dsimp only
    rw [if_pos hr.1, if_neg (by omega)]
  unfold fromStream
  rw [if_neg (by rw [hr.1]; simp), hs]
  unfold readPrefix
  rw [if_neg (by simp)]
  dsimp only
  rw [h1]
  have hl : lenLoop (1 - (0 + 0)) sc.scriptLen (0 + 0) (.of []) = some (sc.scriptLen, 0, .of []) := by
    rw [show 1 - (0 + 0) = 0 + 1 from rfl, lenLoop, if_neg (by simp)]
  rw [hl]
  dsimp only
  unfold alloc
  dsimp only
  rw [if_neg (by omega), if_neg (show ¬ (0 + (0 - 0) = 1 ∧ sc.scriptLen > 0) by omega), if_neg (by dsimp only; omega)]
  unfold readBody
  rw [harr]
  dsimp only
  rw [h0]
  cases sc
  simp_all [PStream.readN, PStream.of, writeAt]

end Script

namespace PSBT

/-- A round in which the stream ends between a key and its value, and the value before was empty. -/
theorem round_wait (p : PSBT) (junk : Bytes) (br : Nat) (hk : p.key.Ready) (hv : p.value.Ready) (h0 : p.value.scriptLen = 0) (hl : p.value.lenLen = 1) (k : Bytes) (hk0 : k ≠ [])
    (hkl : k.length < 2 ^ 31) : ∃ k', k'.Ready ∧
      p.round junk br (.of (varBytes k)) = (({ p with key := k', value := p.value.start }, br + (varBytes k).length, .of []), false) := by
  obtain ⟨k', e1, h1, h2⟩ := Script.ready_var hk k [] hkl
  rw [List.append_nil] at e1
  have e2 := Script.empty_waits hv h0 hl
  have e3 : p.value.start.fromStream (.of []) = (p.value.start, 0, .of []) := by rw [Script.start_again hv.1, e2]
  have hst : p.value.start.status = .incomplete := rfl
  refine ⟨k', script_ready_holds k' k h1 h2, ?_⟩
  unfold round
  rw [if_pos ⟨hk.1, hv.1⟩]
  unfold parseKey
  rw [e1]
  dsimp only
  rw [if_neg (fun h => hk0 ((Script.length_one h2 (by omega)).mp h.2)), if_pos h1]
  unfold parseValue
  dsimp only
  rw [e2]
  dsimp only
  unfold roundRetry
  dsimp only
  rw [if_neg (by rw [hst, h1]; simp), if_neg (by rw [hst, h1]; simp), if_neg (show ¬ k'.status = .incomplete by rw [h1]; simp)]
  dsimp only
  rw [if_pos hst]
  unfold parseValue
  dsimp only
  rw [e3]
  dsimp only
  unfold roundAdd
  dsimp only
  rw [if_neg (by rw [hst, h1]; simp), if_neg (by rw [hst]; simp)]
  rfl

end PSBT

/-- C74: one cut between a key and its value, after a pair whose value is empty: here the parse does not fail, the pair is dropped without notice.  The parse ends
DONE and the object holds the document without that pair. -/
theorem C74_between_lost (junk : Nat → Bytes) {p : PSBT} (hp : p.Clean) (d : PsbtDoc) (hd : d.Ok) {pre post : List (List Pair)} {qs1 qs2 : List Pair} {k1 : Bytes}
    (hm : d.maps = pre ++ (qs1 ++ (k1, []) :: qs2) :: post) (q0 : Pair) (h0 : q0.1 ≠ []) (h1 : q0.1.length < 2 ^ 31) (h2 : q0.2.length < 2 ^ 31) (rest : Bytes) {a b : Bytes}
    (ha : a = psbtMagic ++ pairBytes ([0], txBytes d.tx) ++ mapsBytes pre ++ qs1.flatMap pairBytes ++ pairBytes (k1, []) ++ varBytes q0.1)
    (hb : b = varBytes q0.2 ++ (mapsBytes (qs2 :: post) ++ rest)) :
    (feedPieces (PSBT.fromStream junk) (·.status) p [a, b]).1.status = .done ∧ (feedPieces (PSBT.fromStream junk) (·.status) p [a, b]).1.Holds d ∧
    (feedPieces (PSBT.fromStream junk) (·.status) p [a, b]).2 + rest.length = (a ++ b).length := by
  have hgood := hd.good
  obtain ⟨t, ms, hacc, hh⟩ := PSBT.accepts_of_ok junk hp hd
  rw [hm] at hacc hgood
  have hg1 := hgood (qs1 ++ (k1, []) :: qs2) (by simp) (k1, []) (by simp)
  obtain ⟨P, f, hB, hPk, hPv, hPst, hPb, hPlt, hPl, hf, e⟩ := PSBT.before_cut junk hp hacc (pairBytes (k1, []) ++ varBytes q0.1)
  have hA : a = psbtMagic ++ pairBytes ([0], txBytes d.tx) ++ (mapsBytes pre ++ (qs1.flatMap pairBytes ++ (pairBytes (k1, []) ++ varBytes q0.1))) := by
    rw [ha]; simp only [List.append_assoc]
  rw [← hA] at e
  obtain ⟨pos, hrun⟩ := hB.run
  obtain ⟨pos1, ms1, hr1, hr2⟩ := PSBT.runMaps_split t junk [(k1, [])] qs2 post _ _ _ _ hrun
  have hsmall := hB.small
  have htn : P.sec.toNat = pre.length := by rw [hB.sec, UInt8.toNat_ofNat']; omega
  have hP5 := hB.pos
  have hr1' : PSBT.runMap P.tx junk P.sec.toNat [(k1, [])] P.lastKeyPos (P.ins, P.outs) = .ok (some (pos1, ms1)) := by rw [htn, hB.tx]; exact hr1
  obtain ⟨-, -, -, -, hpos1, -⟩ := PSBT.loop_pairs junk [(k1, [])] 0 P 0 [] pos1 ms1 hPk hPv hP5 hPlt (by intro q hq; rw [List.mem_singleton.mp hq]; exact hg1) hr1'
  have hpl : (pairBytes (k1, [])).length = (varBytes k1).length + (varBytes []).length := by unfold pairBytes; rw [List.length_append]
  rw [List.flatMap_cons, List.flatMap_nil, List.append_nil, hpl] at hpos1
  obtain ⟨f', rfl⟩ : ∃ f', f = f' + 1 := ⟨f - 1, by
    have := List.length_pos_of_ne_nil h0
    unfold varBytes at hf
    simp only [List.length_append] at hf
    omega⟩
  obtain ⟨k, v, hk, hv, hvl, hr⟩ := PSBT.round_pair (br := P.lastKeyPos) hg1 hPk hPv hr1' (varBytes q0.1)
  have hv0 : v.scriptLen = 0 := by rw [hvl]; exact PSBT.read_len hPv [] _ (by simp)
  have hv1 : v.lenLen = 1 := by rw [hvl]; exact Script.read_empty hPv _
  have hne : varBytes q0.1 ≠ [] := by
    intro h
    exact h0 (List.append_eq_nil_iff.mp h).2
  rw [PSBT.loop, if_pos ⟨by rw [PStream.avail_of]; simpa using fun _ => hne, hPlt⟩, hr] at e
  dsimp only at e
  rw [← hpos1] at e
  have hbr : P.lastKeyPos + ((varBytes k1).length + (varBytes []).length) = pos1 := hpos1.symm
  generalize hP' : ({ P with key := k, value := v, ins := ms1.1, outs := ms1.2, lastKeyPos := pos1 } : PSBT) = P' at e
  have hl' : P'.lastKeyPos = pos1 := by rw [← hP']
  have ht' : P'.tx = P.tx := by rw [← hP']
  have hsec : P'.sections = P.sections := PSBT.sections_eq ht' hP5 (by rw [hl']; omega)
  have hs' : P'.sec = P.sec := by rw [← hP']
  have hst' : P'.status = .incomplete := by rw [← hP']; exact hPst
  have hb' : P'.bytesParsed = 0 := by rw [← hP']; exact hPb
  have hm' : (P'.ins, P'.outs) = ms1 := by rw [← hP']
  have hvr : P'.value.Ready := by rw [← hP']; exact hv
  obtain ⟨k2, hk2, hw⟩ := PSBT.round_wait P' (junk P'.lastKeyPos) pos1 (by rw [← hP']; exact hk) hvr (by rw [← hP']; exact hv0) (by rw [← hP']; exact hv1) q0.1 h0 h1
  rw [PSBT.loop, if_pos ⟨by rw [PStream.avail_of]; simpa using hne, by rw [hsec, hs']; exact hPlt⟩, hw] at e
  dsimp only at e
  have hsecK := PSBT.sections_eq (p := P') (q := { P' with key := k2, value := P'.value.start }) rfl (by omega) (by dsimp only; omega)
  have hfin := PSBT.finishAll_more { P' with key := k2, value := P'.value.start } (pos1 + (varBytes q0.1).length) (.of []) (by rw [hsecK, hsec]; dsimp only; rw [hs']; exact hPlt) hst'
  rw [PSBT.loop_empty, hfin] at e
  dsimp only at e
  rw [hb', Nat.zero_add] at e
  have hlen : pos1 + (varBytes q0.1).length = a.length := by
    rw [hA, hpos1, hPl]
    simp only [List.length_append, hpl]
    omega
  -- the second piece
  have hyne : varBytes q0.2 ≠ [] := by
    have := compactSize_length q0.2.length
    intro h
    have h3 := congrArg List.length h
    unfold varBytes at h3
    simp only [List.length_append, List.length_nil] at h3
    omega
  have hxl := List.length_pos_of_ne_nil hne
  obtain ⟨v2, e2, h3, h4⟩ := Script.ready_var hvr q0.2 (mapsBytes (qs2 :: post) ++ rest) h2
  have hls := hacc.sections
  rw [List.length_append, List.length_cons] at hls
  have key2 : PSBT.fromStream junk { P' with key := k2, value := P'.value.start, bytesParsed := pos1 + (varBytes q0.1).length } (.of b) =
      PSBT.loop junk (2 * (mapsBytes (qs2 :: post) ++ rest).length + 2) { P' with key := k2, value := v2, bytesParsed := pos1 + (varBytes q0.1).length } (varBytes q0.2).length
        (.of (mapsBytes (qs2 :: post) ++ rest)) := by
    rw [PSBT.fromStream_again junk { P' with key := k2, value := P'.value.start, bytesParsed := pos1 + (varBytes q0.1).length } hst' (by dsimp only; omega)]
    unfold PSBT.readGlobal
    rw [if_neg (by dsimp only; omega)]
    unfold PSBT.globalKey
    rw [if_neg (by dsimp only; rw [hk2.1]; simp)]
    dsimp only
    rw [if_neg (by rw [hk2.1]; simp), if_neg (by rw [hk2.1]; simp)]
    unfold PSBT.globalValue
    rw [if_pos ⟨by rw [PStream.avail_of, hb]; simp [hyne], rfl⟩]
    unfold PSBT.parseValue
    dsimp only
    rw [Script.start_again hvr.1, hb, e2]
    dsimp only
    rw [if_neg (by rw [h3]; simp), if_neg (by rw [h3]; simp)]
    unfold PSBT.afterGlobal
    rw [if_neg (by dsimp only; omega), Nat.zero_add]
  have hQsec : ({ P' with key := k2, value := v2, bytesParsed := pos1 + (varBytes q0.1).length } : PSBT).sections = UInt8.ofNat (1 + t.txIns.length + t.txOuts.length) := by
    rw [← hB.sections, ← hsec]; exact PSBT.sections_eq rfl (by omega) (by dsimp only; omega)
  have l5 := PSBT.loop_complete junk (2 * (mapsBytes (qs2 :: post) ++ rest).length + 2) { P' with key := k2, value := v2, bytesParsed := pos1 + (varBytes q0.1).length } (varBytes q0.2).length
    (qs2 :: post) rest pos ms hk2 (script_ready_holds _ _ h3 h4) hst' (by dsimp only; omega) (by
      rw [hQsec, gt_iff_lt, UInt8.lt_iff_toNat_lt, ← hacc.sections]; exact hacc.pos)
    (by rw [hQsec]; dsimp only; rw [hs', htn, List.length_cons]; omega)
    (by
      intro m hm
      rcases List.mem_cons.mp hm with rfl | hm
      · exact fun q hq => hgood _ (List.mem_append_right _ (List.mem_cons_self ..)) q (by simp [hq])
      · exact hgood m (List.mem_append_right _ (List.mem_cons_of_mem _ hm)))
    (by rw [List.length_append]; omega) (by dsimp only; rw [hs', htn, ht', hB.tx, hl', hm']; exact hr2)
  rw [← key2] at l5
  unfold feedPieces
  dsimp only
  rw [e]
  dsimp only
  rw [if_pos hst']
  unfold feedPieces
  dsimp only
  rw [if_neg (by rw [l5.status]; simp)]
  refine ⟨l5.status, hh _ (by rw [← hB.tx, ← ht']; exact l5.tx) l5.ins l5.outs, ?_⟩
  have h7 := l5.read
  rw [hlen, hb] at h7
  dsimp only
  rw [List.length_append, hlen, hb]
  simp only [List.length_append] at h7 ⊢
  omega

/-- A sighash type field behind the last pair of the input of `exDoc`, which has an empty value: cut after its key, it is dropped. -/
example (junk : Nat → Bytes) : ∃ a b : Bytes, a ++ b = psbtMagic ++ pairBytes ([0], txBytes exDoc.tx) ++ mapsBytes [exDoc.globals] ++
      ([.prevTx exTxSpec, .redeemScript [0x51], .origin exOrigin, .partialSig exSigEntry, .other ([9, 9], [])] : List InField).flatMap (fun f => pairBytes f.pair) ++
      pairBytes ([3], [1, 0, 0, 0]) ++ mapsBytes ([] :: exDoc.outs.map (·.map OutField.pair)) ∧
    (feedPieces (PSBT.fromStream junk) (·.status) {} [a, b]).1.status = .done ∧ (feedPieces (PSBT.fromStream junk) (·.status) {} [a, b]).1.Holds exDoc := by
  have h := C74_between_lost junk PSBT.clean_fresh exDoc exDoc_ok (pre := [exDoc.globals])
    (qs1 := ([.prevTx exTxSpec, .redeemScript [0x51], .origin exOrigin, .partialSig exSigEntry] : List InField).map InField.pair) (k1 := [9, 9]) (qs2 := [])
    (post := exDoc.outs.map (·.map OutField.pair)) rfl ([3], [1, 0, 0, 0]) (by simp) (by decide) (by decide) [] rfl rfl
  refine ⟨_, _, ?_, h.1, h.2.1⟩
  simp only [List.flatMap_cons, List.flatMap_nil, List.map_cons, List.map_nil, List.append_assoc, List.append_nil, pairBytes, InField.pair]

end UB
