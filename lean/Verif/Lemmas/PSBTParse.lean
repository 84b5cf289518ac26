import Verif.Model.PSBT
import Verif.Spec.PSBT
import Verif.Props.ParseSafe

/-
The loop of PSBT::from_stream over the key-value maps.
-/

namespace UB
open Spec

theorem Script.ser_eq {sc : Script} {d : Bytes} (h : sc.Holds d) (hd : d.length < 2 ^ 64) : sc.ser = .ok (varBytes d) := by
  unfold Script.ser
  rw [serialize_eq _ _ (Script.toStream_eq sc d h hd), C.bind_ok, Script.length_eq sc d h hd]
  simp [serialized]

theorem Script.length_one {sc : Script} {d : Bytes} (h : sc.Holds d) (hd : d.length < 2 ^ 64) : sc.length = 1 ↔ d = [] := by
  rw [Script.length_eq sc d h hd]
  constructor
  · intro h1
    have := compactSize_length d.length
    unfold varBytes at h1
    rw [List.length_append] at h1
    apply List.eq_nil_of_length_eq_zero
    omega
  · rintro rfl; decide

/-- A script parser that has not read anything. -/
structure Script.Idle (sc : Script) : Prop where
  status : sc.status = .incomplete
  parsed : sc.bytesParsed = 0
  len : sc.scriptLen = 0

theorem Script.idle_rest (sc : Script) (h : sc.Idle) :
    (sc.rest 0 (.of [])).2.2 = .of [] ∧ ((sc.rest 0 (.of [])).1.status = .failed ∨ (sc.rest 0 (.of [])).1.Idle) := by
  obtain ⟨h1, h2, h3⟩ := h
  have hl : ∀ n, lenLoop n sc.scriptLen (sc.bytesParsed + 0) (.of []) = some (0, 0, .of []) := by
    intro n
    rw [h3, h2]
    cases n <;> simp [lenLoop]
  rw [Script.rest_some _ _ _ _ _ _ (hl _)]
  unfold Script.alloc
  simp only [h2, Nat.sub_zero, Nat.add_zero]
  simp only [gt_iff_lt, Nat.lt_irrefl, false_and, and_false, if_false]
  by_cases hz : sc.lenLen = 0
  · rw [if_pos ⟨hz.symm, by rw [hz]; decide⟩]; simp
  · rw [if_neg (fun h => hz h.1.symm)]
    unfold Script.readBody
    simp only [PStream.readN_of, List.take_nil, List.drop_nil, h2, writeAt, if_true, List.length_nil]
    rw [if_neg (by omega)]
    exact ⟨trivial, Or.inr ⟨h1, by simp, by simp⟩⟩

theorem Script.empty_ready (sc : Script) (hr : sc.Ready) :
    (sc.fromStream (.of [])).2.2 = .of [] ∧ ((sc.fromStream (.of [])).1.status = .failed ∨ (sc.fromStream (.of [])).1.Idle) := by
  obtain ⟨h1, h2, h3⟩ := sc.start_ready hr
  have h4 : sc.start.scriptLen = 0 := by
    unfold Script.start
    rw [if_pos hr.1]
    unfold Script.clear
    simp only
    split_ifs with h
    · rfl
    · simp only; omega
  rw [Script.fromStream_eq _ _ (by rw [hr.1]; simp)]
  unfold Script.readPrefix
  simp only [PStream.avail_of, List.isEmpty_nil, Bool.not_true, Bool.false_eq_true, false_and, if_false]
  exact Script.idle_rest _ ⟨h1, h2, h4⟩

theorem Script.empty_idle (sc : Script) (hr : sc.Idle) :
    (sc.fromStream (.of [])).2.2 = .of [] ∧ ((sc.fromStream (.of [])).1.status = .failed ∨ (sc.fromStream (.of [])).1.Idle) := by
  have hs : sc.start = sc := by
    unfold Script.start
    rw [if_neg (by rw [hr.status]; simp)]
    have := hr.status
    cases sc; simp_all
  rw [Script.fromStream_eq _ _ (by rw [hr.status]; simp), hs]
  unfold Script.readPrefix
  simp only [PStream.avail_of, List.isEmpty_nil, Bool.not_true, Bool.false_eq_true, false_and, if_false]
  exact Script.idle_rest _ hr

namespace PSBT

/-- `add` on the bytes of key and value, as an effect on the metadata. -/
def addM (tx : Tx) (junk : Bytes) (sec : Nat) (ms : List InMeta × List OutMeta) (k v : Bytes) : C (Int × List InMeta × List OutMeta) :=
  if sec = 0 ∨ sec > 1 + tx.txIns.length + tx.txOuts.length then .ok (0, ms)
  else do
    let code ← peek (varBytes k) (dataPos (varBytes k))
    if sec < 1 + tx.txIns.length then
      match ms.1[sec - 1]?, tx.txIns[sec - 1]? with
      | some m, some i => do
        let (r, m) ← m.add junk i code (varBytes k) (varBytes v)
        return (r, ms.1.set (sec - 1) m, ms.2)
      | _, _ => .ub
    else
      match ms.2[sec - 1 - tx.txIns.length]? with
      | some m => do
        let (r, m) ← m.add junk code (varBytes k) (varBytes v)
        return (r, ms.1, ms.2.set (sec - 1 - tx.txIns.length) m)
      | none => .ub

theorem add_eq (p : PSBT) (junk : Bytes) (sec : UInt8) {k v : Script} {kb vb : Bytes} (hk : k.Holds kb) (hv : v.Holds vb)
    (hkl : kb.length < 2 ^ 64) (hvl : vb.length < 2 ^ 64) :
    p.add junk sec k v = (do let (r, i, o) ← addM p.tx junk sec.toNat (p.ins, p.outs) kb vb; return (r, { p with ins := i, outs := o })) := by
  unfold add addM
  rw [Script.ser_eq hk hkl, Script.ser_eq hv hvl]
  have hz : sec = 0 ↔ sec.toNat = 0 := by
    constructor
    · rintro rfl; rfl
    · intro h; exact UInt8.toNat_inj.mp h
  by_cases h0 : sec.toNat = 0 ∨ sec.toNat > 1 + p.tx.txIns.length + p.tx.txOuts.length
  · rw [if_pos h0, if_pos (by rw [hz]; exact h0)]; rfl
  rw [if_neg h0, if_neg (by rw [hz]; exact h0), C.bind_ok, C.bind_ok]
  cases hp : peek (varBytes kb) (dataPos (varBytes kb)) with
  | ub => rfl
  | ok code =>
    rw [C.bind_ok, C.bind_ok]
    by_cases h1 : sec.toNat < 1 + p.tx.txIns.length
    · rw [if_pos h1, if_pos h1]
      dsimp only
      cases p.ins[sec.toNat - 1]? with
      | none => rfl
      | some m =>
        cases p.tx.txIns[sec.toNat - 1]? with
        | none => rfl
        | some i =>
          dsimp only
          cases m.add junk i code (varBytes kb) (varBytes vb) <;> rfl
    · rw [if_neg h1, if_neg h1]
      dsimp only
      cases p.outs[sec.toNat - 1 - p.tx.txIns.length]? with
      | none => rfl
      | some m =>
        dsimp only
        cases m.add junk code (varBytes kb) (varBytes vb) <;> rfl

/-- The pairs of map `sec`, read from position `pos`; `none`: refused. -/
def runMap (tx : Tx) (junk : Nat → Bytes) (sec : Nat) : List Pair → Nat → List InMeta × List OutMeta → C (Option (Nat × List InMeta × List OutMeta))
  | [], pos, ms => .ok (some (pos, ms))
  | (k, v) :: ps, pos, ms => do
    let (r, ms) ← addM tx (junk pos) sec ms k v
    if r < 0 then return none
    else runMap tx junk sec ps (pos + ((varBytes k).length + (varBytes v).length)) ms

/-- The maps from number `sec` on. -/
def runMaps (tx : Tx) (junk : Nat → Bytes) : List (List Pair) → Nat → Nat → List InMeta × List OutMeta → C (Option (Nat × List InMeta × List OutMeta))
  | [], _, pos, ms => .ok (some (pos, ms))
  | m :: maps, sec, pos, ms => do
    match ← runMap tx junk sec m pos ms with
    | none => return none
    | some (pos, ms) => runMaps tx junk maps (sec + 1) (pos + 1) ms

/-- What one round does to an object between two pairs. -/
inductive RoundOut (p : PSBT) (junk : Bytes) (br : Nat) (c : Bytes) : (PSBT × Nat × PStream) × Bool → Prop
  | delim (r : Bytes) (k : Script) (hk : k.Ready) (hc : readVar c = .ok [] r) :
      RoundOut p junk br c (({ p with key := k, sec := p.sec + 1, lastKeyPos := p.lastKeyPos + 1 }, br + 1, .of r), false)
  | pair (kb vb r r' : Bytes) (k v : Script) (hk : k.Ready) (hv : v.Ready) (hc : readVar c = .ok kb r) (hne : kb ≠ []) (hr : readVar r = .ok vb r')
      (res : Int) (ms : List InMeta × List OutMeta) (ha : addM p.tx junk p.sec.toNat (p.ins, p.outs) kb vb = .ok (res, ms)) (h0 : 0 ≤ res) :
      RoundOut p junk br c (({ p with key := k, value := v, ins := ms.1, outs := ms.2, lastKeyPos := p.lastKeyPos + ((varBytes kb).length + (varBytes vb).length) }, br + ((varBytes kb).length + (varBytes vb).length), .of r'), false)
  | refused (kb vb r r' : Bytes) (q : PSBT × Nat × PStream) (hc : readVar c = .ok kb r) (hne : kb ≠ []) (hr : readVar r = .ok vb r')
      (ha : ∀ res ms, addM p.tx junk p.sec.toNat (p.ins, p.outs) kb vb = .ok (res, ms) → res < 0) (hq : q.1.status.Stopped)
      (hx : ∀ res ms, addM p.tx junk p.sec.toNat (p.ins, p.outs) kb vb = .ok (res, ms) →
        q.1.status = .failed ∧ q.1.tx = p.tx ∧ q.1.ins = ms.1 ∧ q.1.outs = ms.2)
      (hu : addM p.tx junk p.sec.toNat (p.ins, p.outs) kb vb = .ub → q.1.status = .ub) : RoundOut p junk br c (q, true)
  | stopped (q : PSBT × Nat × PStream) (hc : readVar c = .bad ∨ ∃ kb r, readVar c = .ok kb r ∧ kb ≠ [] ∧ ∀ v r', readVar r ≠ .ok v r')
      (hq : q.1.status.Stopped) (hu : q.1.status = .ub ↔ HugeLen c ∨ ∃ kb r, readVar c = .ok kb r ∧ HugeLen r) : RoundOut p junk br c (q, true)
  | more (q : PSBT) (n : Nat) (hc : readVar c = .more ∨ ∃ kb r, readVar c = .ok kb r ∧ kb ≠ [] ∧ readVar r = .more) (hs : q.status = p.status)
      (ht : q.tx = p.tx) (hsec : q.sec = p.sec) (hpos : q.lastKeyPos = p.lastKeyPos) : RoundOut p junk br c ((q, n, .of []), false)

theorem round_out (p : PSBT) (junk : Bytes) (br : Nat) (c : Bytes) (hc : c ≠ []) (hk : p.key.Ready) (hv : p.value.Ready) :
    RoundOut p junk br c (p.round junk br (.of c)) := by
  unfold round
  rw [if_pos ⟨hk.1, hv.1⟩]
  have hf := Script.feed p.key [] c (Or.inl ⟨hk, rfl, hc⟩)
  unfold Script.Outcome at hf
  rw [List.nil_append] at hf
  unfold parseKey
  generalize he : p.key.fromStream (.of c) = x at hf ⊢
  obtain ⟨k, n, s⟩ := x
  dsimp only at hf ⊢
  cases e : readVar c with
  | bad =>
    rw [e] at hf
    have hu : k.status = .ub ↔ HugeLen c := by rw [hugeLen_iff]; exact hf.2.1.trans ⟨fun h => ⟨e, h⟩, fun h => h.2⟩
    have hu : k.status = .ub ↔ HugeLen c ∨ ∃ kb r, readVar c = .ok kb r ∧ HugeLen r := by rw [hu]; simp [e]
    have hf : k.status.Stopped := hf.1
    have hnd : k.status ≠ .done := by rcases hf with h | h <;> rw [h] <;> simp
    rw [if_neg (fun h => hnd h.1), if_neg hnd]
    unfold roundRetry
    rcases hf with h | h
    · rw [if_neg (by rw [h, hv.1]; simp), if_pos (Or.inl h)]
      exact .stopped _ (Or.inl e) (Or.inl rfl) (by rw [← hu, h]; simp [finish])
    · rw [if_pos (Or.inl h)]
      exact .stopped _ (Or.inl e) (Or.inr rfl) (by rw [← hu, h])
  | more =>
    rw [e] at hf
    obtain ⟨hm, -, rfl⟩ := hf
    have hst := hm.status
    rw [if_neg (by rw [hst]; simp), if_neg (by rw [hst]; simp)]
    have hf2 := Script.feed k c [] (Or.inr hm)
    unfold Script.Outcome at hf2
    rw [List.append_nil, e] at hf2
    obtain ⟨hm2, -, hs2⟩ := hf2
    have := hm2.status
    unfold roundRetry
    dsimp only
    rw [if_neg (by rw [hst, hv.1]; simp), if_neg (by rw [hst, hv.1]; simp), if_pos hst]
    unfold parseKey
    dsimp only
    rw [if_neg (by rw [hv.1]; simp)]
    unfold roundAdd
    dsimp only
    rw [if_neg (by rw [this, hv.1]; simp), if_neg (by rw [this]; simp), hs2]
    exact .more _ _ (Or.inl e) rfl rfl rfl rfl
  | ok kb r =>
    rw [e] at hf
    obtain ⟨hd, hh, -, hn, rfl⟩ := hf
    have hkl : kb.length < 2 ^ 64 := by
      have := (readVar_sound _ _ _ e).2
      omega
    have hkr : k.Ready := script_ready_holds k kb hd hh
    have hlen := congrArg List.length (readVar_sound _ _ _ e).1
    rw [List.length_append] at hlen
    have hn' : n = (varBytes kb).length := by omega
    by_cases hkb : kb = []
    · subst hkb
      rw [if_pos ⟨hd, (Script.length_one hh hkl).mpr rfl⟩]
      subst hn'
      exact .delim r k hkr e
    rw [if_neg (fun h => hkb ((Script.length_one hh hkl).mp h.2)), if_pos hd]
    unfold parseValue
    generalize he2 : p.value.fromStream (.of r) = y
    obtain ⟨v, n2, s⟩ := y
    dsimp only
    unfold roundRetry
    dsimp only
    by_cases hr : r = []
    · subst hr
      have hemp := Script.empty_ready p.value hv
      rw [he2] at hemp
      obtain ⟨rfl, h | h⟩ := hemp
      · rw [if_neg (by rw [hd, h]; simp), if_pos (Or.inr h)]
        refine .stopped _ (Or.inr ⟨kb, [], e, hkb, by simp [readVar]⟩) (Or.inl rfl) ⟨fun h => by simp [finish] at h, ?_⟩
        rintro (h | ⟨kb', r, h, h'⟩)
        · rw [hugeLen_iff, e] at h; cases h.1
        · rw [e] at h; cases h; rw [hugeLen_iff] at h'; simp at h'
      · have this : v.status = .incomplete := h.status
        rw [if_neg (by rw [hd, this]; simp), if_neg (by rw [hd, this]; simp), if_neg (show ¬ k.status = .incomplete by rw [hd]; simp)]
        dsimp only
        rw [if_pos this]
        unfold parseValue
        dsimp only
        have hemp := Script.empty_idle v h
        unfold roundAdd
        dsimp only
        have hnd : (v.fromStream (.of [])).1.status ≠ .done ∧ (v.fromStream (.of [])).1.status ≠ .ub := by
          rcases hemp.2 with h | h
          · rw [h]; simp
          · rw [h.status]; simp
        rw [if_neg (by rw [hd]; simpa using hnd.2), if_neg (by rw [hd]; simpa using hnd.1), hemp.1]
        exact .more _ _ (Or.inr ⟨kb, [], e, hkb, rfl⟩) rfl rfl rfl rfl
    have hf := Script.feed p.value [] r (Or.inl ⟨hv, rfl, hr⟩)
    unfold Script.Outcome at hf
    rw [List.nil_append, he2] at hf
    dsimp only at hf
    cases e2 : readVar r with
    | bad =>
      rw [e2] at hf
      have hu : v.status = .ub ↔ HugeLen r := by rw [hugeLen_iff]; exact hf.2.1.trans ⟨fun h => ⟨e2, h⟩, fun h => h.2⟩
      have hu : v.status = .ub ↔ HugeLen c ∨ ∃ kb r, readVar c = .ok kb r ∧ HugeLen r := by
        rw [hu, hugeLen_iff c, e]; simp
      have hf : v.status.Stopped := hf.1
      rcases hf with h | h
      · rw [if_neg (by rw [h, hd]; simp), if_pos (Or.inr h)]
        exact .stopped _ (Or.inr ⟨kb, r, e, hkb, by rw [e2]; simp⟩) (Or.inl rfl) (by rw [← hu, h]; simp [finish])
      · rw [if_pos (Or.inr h)]
        exact .stopped _ (Or.inr ⟨kb, r, e, hkb, by rw [e2]; simp⟩) (Or.inr rfl) (by rw [← hu, h])
    | more =>
      rw [e2] at hf
      obtain ⟨hm, -, rfl⟩ := hf
      have hst := hm.status
      have hf2 := Script.feed v r [] (Or.inr hm)
      unfold Script.Outcome at hf2
      rw [List.append_nil, e2] at hf2
      obtain ⟨hm2, -, hs2⟩ := hf2
      have := hm2.status
      rw [if_neg (by rw [hst, hd]; simp), if_neg (by rw [hst, hd]; simp), if_neg (show ¬ k.status = .incomplete by rw [hd]; simp)]
      dsimp only
      rw [if_pos hst]
      unfold parseValue
      dsimp only
      unfold roundAdd
      dsimp only
      rw [if_neg (by rw [this, hd]; simp), if_neg (by rw [this]; simp), hs2]
      exact .more _ _ (Or.inr ⟨kb, r, e, hkb, e2⟩) rfl rfl rfl rfl
    | ok vb r' =>
      rw [e2] at hf
      obtain ⟨hdv, hhv, -, hnv, rfl⟩ := hf
      have hvl : vb.length < 2 ^ 64 := by
        have := (readVar_sound _ _ _ e2).2
        omega
      have hvr : v.Ready := script_ready_holds v vb hdv hhv
      have hlen := congrArg List.length (readVar_sound _ _ _ e2).1
      rw [List.length_append] at hlen
      have hn2 : n2 = (varBytes vb).length := by omega
      rw [if_neg (by rw [hdv, hd]; simp), if_neg (by rw [hdv, hd]; simp), if_neg (show ¬ k.status = .incomplete by rw [hd]; simp)]
      dsimp only
      rw [if_neg (by rw [hdv]; simp)]
      unfold roundAdd
      dsimp only
      rw [if_neg (by rw [hdv, hd]; simp), if_pos ⟨hd, hdv⟩, add_eq _ _ _ hh hhv hkl hvl]
      dsimp only
      cases ha : addM p.tx junk p.sec.toNat (p.ins, p.outs) kb vb with
      | ub =>
        rw [C.bind_ub]
        exact .refused kb vb r r' _ e hkb e2 (by rw [ha]; simp) (Or.inr rfl) (by rw [ha]; simp) (fun _ => rfl)
      | ok x =>
        obtain ⟨res, ms⟩ := x
        rw [C.bind_ok]
        dsimp only [C.pure_eq]
        by_cases h0 : res < 0
        · rw [if_pos h0]
          refine .refused kb vb r r' _ e hkb e2 ?_ (Or.inl rfl) ?_ (by rw [ha]; simp)
          · intro res' ms' h
            rw [ha] at h
            cases h; exact h0
          · intro res' ms' h
            rw [ha] at h
            cases h; exact ⟨rfl, rfl, rfl, rfl⟩
        · rw [if_neg h0, Script.length_eq k kb hh hkl, Script.length_eq v vb hhv hvl, hn', hn2]
          have := RoundOut.pair (p := p) (junk := junk) (br := br) (c := c) kb vb r r' k v hkr hvr e hkb e2 res ms ha (by omega)
          rw [← Nat.add_assoc br] at this
          exact this


/-- A pair that is read back as it was written. -/
def GoodPair (q : Pair) : Prop := q.1 ≠ [] ∧ q.1.length < 2 ^ 31 ∧ q.2.length < 2 ^ 31

/-- The maps `maps` have been read from the bytes `c`, and the parse is complete. -/
structure LoopDone (p : PSBT) (br : Nat) (c : Bytes) (res : PSBT × Nat × PStream) (rest : Bytes) (pos : Nat) (ms : List InMeta × List OutMeta) : Prop where
  status : res.1.status = .done
  tx : res.1.tx = p.tx
  ins : res.1.ins = ms.1
  outs : res.1.outs = ms.2
  pos : res.1.lastKeyPos = pos
  sec : res.1.sec = p.sections
  some : p.sections > 0
  key : res.1.key.Ready
  value : res.1.value.Ready
  stream : res.2.2 = .of rest
  read : res.2.1 + rest.length = br + c.length
  parsed : res.1.bytesParsed = p.bytesParsed + res.2.1

theorem assign_ready {a : Script} (h : a.Ready) : (a.assign {}).Ready := by
  have h2 := h.2
  unfold Script.assign Script.clear
  rw [if_neg (by simp)]
  split_ifs with h0
  · exact ⟨rfl, rfl⟩
  · exact ⟨rfl, h2⟩

theorem sections_eq {p q : PSBT} (h1 : q.tx = p.tx) (h2 : 5 < p.lastKeyPos) (h3 : 5 < q.lastKeyPos) : q.sections = p.sections := by
  unfold sections
  rw [if_pos h2, if_pos h3, h1]

theorem finishAll_done (p : PSBT) (br : Nat) (s : PStream) (h : p.status = .incomplete) :
    (p.finishAll br s).1.status = .done ↔ p.sec = p.sections ∧ p.sections > 0 := by
  unfold finishAll
  by_cases hc : p.sec = p.sections ∧ p.sections > 0
  · rw [if_pos hc]; simp [finish, hc]
  · rw [if_neg hc]; simp [finish, h, hc]

theorem finishAll_of (p : PSBT) (br : Nat) (c : Bytes) (hk : p.key.Ready) (hv : p.value.Ready) (h : p.sec = p.sections ∧ p.sections > 0) :
    LoopDone p br c (p.finishAll br (.of c)) c p.lastKeyPos (p.ins, p.outs) := by
  unfold finishAll
  rw [if_pos h]
  exact ⟨rfl, rfl, rfl, rfl, rfl, h.1, h.2, assign_ready hk, assign_ready hv, rfl, rfl, rfl⟩

theorem mapsBytes_pair (k v : Bytes) (m : List Pair) (maps : List (List Pair)) :
    mapsBytes (((k, v) :: m) :: maps) = varBytes k ++ (varBytes v ++ mapsBytes (m :: maps)) := by
  simp [mapsBytes, mapBytes, pairBytes]

theorem mapsBytes_delim (maps : List (List Pair)) : mapsBytes ([] :: maps) = 0 :: mapsBytes maps := by
  simp [mapsBytes, mapBytes]

theorem varBytes_nil : varBytes [] = [0] := by decide

/-- A parse of the maps that ends DONE has read complete maps, one for every section left. -/
theorem loop_sound (junk : Nat → Bytes) : ∀ (fuel : Nat) (p : PSBT) (br : Nat) (c : Bytes), p.key.Ready → p.value.Ready → p.status = .incomplete →
    5 < p.lastKeyPos → (loop junk fuel p br (.of c)).1.status = .done →
    ∃ maps rest pos ms, p.sec.toNat + maps.length = p.sections.toNat ∧ c = mapsBytes maps ++ rest ∧ (∀ m ∈ maps, ∀ q ∈ m, GoodPair q) ∧
      runMaps p.tx junk maps p.sec.toNat p.lastKeyPos (p.ins, p.outs) = .ok (some (pos, ms)) ∧ LoopDone p br c (loop junk fuel p br (.of c)) rest pos ms := by
  intro fuel
  induction fuel with
  | zero =>
    intro p br c hk hv hs hl h
    unfold loop at h ⊢
    have hc := (finishAll_done _ _ _ hs).mp h
    exact ⟨[], c, p.lastKeyPos, (p.ins, p.outs), by rw [hc.1]; rfl, rfl, by simp, rfl, finishAll_of p br c hk hv hc⟩
  | succ fuel ih =>
    intro p br c hk hv hs hl h
    unfold loop at h ⊢
    by_cases hcond : (PStream.of c).avail ∧ p.sec < p.sections
    · rw [if_pos hcond] at h ⊢
      have hcne : c ≠ [] := by
        rintro rfl
        simp at hcond
      have hlt : p.sec.toNat < p.sections.toNat := UInt8.lt_iff_toNat_lt.mp hcond.2
      have hro := round_out p (junk p.lastKeyPos) br c hcne hk hv
      generalize p.round (junk p.lastKeyPos) br (.of c) = x at hro h ⊢
      cases hro with
      | delim r k hk' hc =>
        dsimp only at h ⊢
        have hsec : (p.sec + 1).toNat = p.sec.toNat + 1 := by
          rw [UInt8.toNat_add]
          have := p.sections.toNat_lt
          have h1 : (1 : UInt8).toNat = 1 := rfl
          omega
        obtain ⟨maps, rest, pos, ms, h1, h2, h3, h4, h5⟩ := ih { p with key := k, sec := p.sec + 1, lastKeyPos := p.lastKeyPos + 1 } _ _ hk' hv hs (by dsimp only; omega) h
        have hcs := (readVar_sound _ _ _ hc).1
        rw [varBytes_nil] at hcs
        have hsections := sections_eq (p := p) (q := { p with key := k, sec := p.sec + 1, lastKeyPos := p.lastKeyPos + 1 }) rfl hl (by dsimp only; omega)
        dsimp only at h1 h4
        rw [hsec, hsections] at h1
        refine ⟨[] :: maps, rest, pos, ms, by rw [List.length_cons]; omega, ?_, ?_, ?_, ?_⟩
        · rw [mapsBytes_delim, List.cons_append, ← h2]; exact hcs
        · intro m hm
          rcases List.mem_cons.mp hm with rfl | hm
          · simp
          · exact h3 m hm
        · unfold runMaps
          unfold runMap
          rw [C.bind_ok]
          rw [hsec] at h4
          exact h4
        · have hl' := congrArg List.length hcs
          simp only [List.length_append, List.length_singleton] at hl'
          have hr := h5.read
          exact ⟨h5.status, h5.tx, h5.ins, h5.outs, h5.pos, by rw [h5.sec, hsections], by rw [← hsections]; exact h5.some, h5.key, h5.value, h5.stream, by omega, h5.parsed⟩
      | pair kb vb r r' k v hk' hv' hc hne hr res ms' ha h0 =>
        dsimp only at h ⊢
        obtain ⟨maps, rest, pos, ms, h1, h2, h3, h4, h5⟩ := ih { p with key := k, value := v, ins := ms'.1, outs := ms'.2, lastKeyPos := p.lastKeyPos + ((varBytes kb).length + (varBytes vb).length) } _ _ hk' hv' hs (by dsimp only; omega) h
        have hcs := readVar_sound _ _ _ hc
        have hcs2 := readVar_sound _ _ _ hr
        have hsections := sections_eq (p := p) (q := { p with key := k, value := v, ins := ms'.1, outs := ms'.2, lastKeyPos := p.lastKeyPos + ((varBytes kb).length + (varBytes vb).length) }) rfl hl (by dsimp only; omega)
        dsimp only at h1 h4
        rw [hsections] at h1
        cases maps with
        | nil => rw [List.length_nil] at h1; omega
        | cons m maps =>
          refine ⟨((kb, vb) :: m) :: maps, rest, pos, ms, by rw [List.length_cons] at h1 ⊢; exact h1, ?_, ?_, ?_, ?_⟩
          · rw [mapsBytes_pair, List.append_assoc, List.append_assoc, ← h2, ← hcs2.1]; exact hcs.1
          · intro m' hm'
            rcases List.mem_cons.mp hm' with rfl | hm'
            · intro q hq
              rcases List.mem_cons.mp hq with rfl | hq
              · exact ⟨hne, hcs.2, hcs2.2⟩
              · exact h3 m (List.mem_cons_self ..) q hq
            · exact h3 m' (List.mem_cons_of_mem _ hm')
          · unfold runMaps at h4 ⊢
            unfold runMap
            rw [ha, C.bind_ok]
            dsimp only
            rw [if_neg (by omega)]
            exact h4
          · have hl1 := congrArg List.length hcs.1
            have hl2 := congrArg List.length hcs2.1
            simp only [List.length_append] at hl1 hl2
            have hr := h5.read
            exact ⟨h5.status, h5.tx, h5.ins, h5.outs, h5.pos, by rw [h5.sec, hsections], by rw [← hsections]; exact h5.some, h5.key, h5.value, h5.stream, by omega, h5.parsed⟩
      | refused kb vb r r' q hc hne hr ha hq => rw [h] at hq; exact absurd hq not_stopped_done
      | stopped q hc hq _ => rw [h] at hq; exact absurd hq not_stopped_done
      | more q n hc hs' ht hsec hpos =>
        exfalso
        dsimp only at h
        have : (loop junk fuel q n (.of [])) = q.finishAll n (.of []) := by
          cases fuel with
          | zero => rfl
          | succ fuel => unfold loop; rw [if_neg (by simp)]
        rw [this, finishAll_done _ _ _ (by rw [hs', hs]), sections_eq ht hl (by rw [hpos]; exact hl), hsec] at h
        rw [h.1] at hlt
        omega
    · rw [if_neg hcond] at h ⊢
      have hc := (finishAll_done _ _ _ hs).mp h
      exact ⟨[], c, p.lastKeyPos, (p.ins, p.outs), by rw [hc.1]; rfl, rfl, by simp, rfl, finishAll_of p br c hk hv hc⟩

/-- Maps that `add` accepts are read, and the parse is complete. -/
theorem loop_complete (junk : Nat → Bytes) : ∀ (fuel : Nat) (p : PSBT) (br : Nat) (maps : List (List Pair)) (rest : Bytes) (pos : Nat)
    (ms : List InMeta × List OutMeta), p.key.Ready → p.value.Ready → p.status = .incomplete → 5 < p.lastKeyPos → p.sections > 0 →
    p.sec.toNat + maps.length = p.sections.toNat → (∀ m ∈ maps, ∀ q ∈ m, GoodPair q) → (mapsBytes maps).length ≤ fuel →
    runMaps p.tx junk maps p.sec.toNat p.lastKeyPos (p.ins, p.outs) = .ok (some (pos, ms)) →
    LoopDone p br (mapsBytes maps ++ rest) (loop junk fuel p br (.of (mapsBytes maps ++ rest))) rest pos ms := by
  intro fuel
  induction fuel with
  | zero =>
    intro p br maps rest pos ms hk hv hs hl hp hlen hg hf hrun
    cases maps with
    | cons m maps => simp [mapsBytes, mapBytes] at hf
    | nil =>
      unfold runMaps at hrun
      cases hrun
      unfold loop
      exact finishAll_of p br _ hk hv ⟨UInt8.toNat_inj.mp hlen, hp⟩
  | succ fuel ih =>
    intro p br maps rest pos ms hk hv hs hl hp hlen hg hf hrun
    unfold loop
    cases maps with
    | nil =>
      unfold runMaps at hrun
      cases hrun
      have h : p.sec = p.sections := UInt8.toNat_inj.mp hlen
      rw [if_neg (by rw [h]; intro h2; exact absurd (UInt8.lt_iff_toNat_lt.mp h2.2) (Nat.lt_irrefl _))]
      exact finishAll_of p br _ hk hv ⟨h, hp⟩
    | cons m maps =>
      rw [List.length_cons] at hlen
      have hlt : p.sec < p.sections := by rw [UInt8.lt_iff_toNat_lt]; omega
      have hcne : mapsBytes (m :: maps) ++ rest ≠ [] := by simp [mapsBytes, mapBytes]
      rw [if_pos ⟨by rw [PStream.avail_of]; simpa using hcne, hlt⟩]
      have hro := round_out p (junk p.lastKeyPos) br _ hcne hk hv
      generalize hx : p.round (junk p.lastKeyPos) br (.of (mapsBytes (m :: maps) ++ rest)) = x at hro ⊢
      clear hx
      cases m with
      | nil =>
        have hrd : readVar (mapsBytes ([] :: maps) ++ rest) = .ok [] (mapsBytes maps ++ rest) := by
          rw [mapsBytes_delim]
          exact readVar_varBytes [] _ (by simp)
        have hsec : (p.sec + 1).toNat = p.sec.toNat + 1 := by
          rw [UInt8.toNat_add]
          have := p.sections.toNat_lt
          have h1 : (1 : UInt8).toNat = 1 := rfl
          omega
        cases hro with
        | delim r k hk' hc =>
          rw [hrd] at hc
          cases hc
          dsimp only
          have hsections := sections_eq (p := p) (q := { p with key := k, sec := p.sec + 1, lastKeyPos := p.lastKeyPos + 1 }) rfl hl (by dsimp only; omega)
          unfold runMaps at hrun
          unfold runMap at hrun
          rw [C.bind_ok] at hrun
          have h5 := ih { p with key := k, sec := p.sec + 1, lastKeyPos := p.lastKeyPos + 1 } (br + 1) maps rest pos ms hk' hv hs (by dsimp only; omega)
            (by rw [hsections]; exact hp) (by rw [hsections]; dsimp only; omega) (fun m hm => hg m (List.mem_cons_of_mem _ hm))
            (by rw [mapsBytes_delim, List.length_cons] at hf; omega) (by dsimp only; rw [hsec]; exact hrun)
          have hr := h5.read
          exact ⟨h5.status, h5.tx, h5.ins, h5.outs, h5.pos, by rw [h5.sec, hsections], by rw [← hsections]; exact h5.some, h5.key, h5.value, h5.stream,
            by rw [mapsBytes_delim, List.cons_append, List.length_cons]; omega, h5.parsed⟩
        | pair kb vb r r' k v hk' hv' hc hne hr res ms' ha h0 => rw [hrd] at hc; cases hc; exact absurd rfl hne
        | refused kb vb r r' q hc hne hr ha hq => rw [hrd] at hc; cases hc; exact absurd rfl hne
        | stopped q hc hq _ =>
          rw [hrd] at hc
          rcases hc with hc | ⟨kb, r, hc, hne, _⟩
          · cases hc
          · cases hc; exact absurd rfl hne
        | more q n hc hs' ht hsec hpos =>
          rw [hrd] at hc
          rcases hc with hc | ⟨kb, r, hc, hne, _⟩
          · cases hc
          · cases hc; exact absurd rfl hne
      | cons q m =>
        obtain ⟨k0, v0⟩ := q
        obtain ⟨g1, g2, g3⟩ := hg _ (List.mem_cons_self ..) (k0, v0) (List.mem_cons_self ..)
        dsimp only at g1 g2 g3
        have hrd : readVar (mapsBytes (((k0, v0) :: m) :: maps) ++ rest) = .ok k0 (varBytes v0 ++ (mapsBytes (m :: maps) ++ rest)) := by
          rw [mapsBytes_pair, List.append_assoc, List.append_assoc]
          exact readVar_varBytes k0 _ g2
        have hrd2 : readVar (varBytes v0 ++ (mapsBytes (m :: maps) ++ rest)) = .ok v0 (mapsBytes (m :: maps) ++ rest) := readVar_varBytes v0 _ g3
        unfold runMaps at hrun
        unfold runMap at hrun
        cases hro with
        | delim r k hk' hc => rw [hrd] at hc; cases hc; exact absurd rfl g1
        | pair kb vb r r' k v hk' hv' hc hne hr res ms' ha h0 =>
          rw [hrd] at hc
          cases hc
          rw [hrd2] at hr
          cases hr
          dsimp only
          rw [ha, C.bind_ok] at hrun
          dsimp only at hrun
          rw [if_neg (by omega)] at hrun
          have hsections := sections_eq (p := p) (q := { p with key := k, value := v, ins := ms'.1, outs := ms'.2, lastKeyPos := p.lastKeyPos + ((varBytes k0).length + (varBytes v0).length) }) rfl hl (by dsimp only; omega)
          have hlb : (mapsBytes (((k0, v0) :: m) :: maps)).length = (varBytes k0).length + ((varBytes v0).length + (mapsBytes (m :: maps)).length) := by
            rw [mapsBytes_pair]; simp only [List.length_append]
          have hvp : 0 < (varBytes k0).length := by
            have := compactSize_length k0.length
            unfold varBytes
            rw [List.length_append]; omega
          have h5 := ih { p with key := k, value := v, ins := ms'.1, outs := ms'.2, lastKeyPos := p.lastKeyPos + ((varBytes k0).length + (varBytes v0).length) }
            (br + ((varBytes k0).length + (varBytes v0).length)) (m :: maps) rest pos ms hk' hv' hs (by dsimp only; omega)
            (by rw [hsections]; exact hp) (by rw [hsections, List.length_cons]; dsimp only; omega) (by
              intro m' hm'
              rcases List.mem_cons.mp hm' with rfl | hm'
              · exact fun q hq => hg _ (List.mem_cons_self ..) q (List.mem_cons_of_mem _ hq)
              · exact hg m' (List.mem_cons_of_mem _ hm'))
            (by omega) (by dsimp only; unfold runMaps; exact hrun)
          have hr := h5.read
          rw [List.length_append] at hr
          exact ⟨h5.status, h5.tx, h5.ins, h5.outs, h5.pos, by rw [h5.sec, hsections], by rw [← hsections]; exact h5.some, h5.key, h5.value, h5.stream,
            by rw [List.length_append, hlb]; omega, h5.parsed⟩
        | refused kb vb r r' q hc hne hr ha hq =>
          exfalso
          rw [hrd] at hc
          cases hc
          rw [hrd2] at hr
          cases hr
          cases hadd : addM p.tx (junk p.lastKeyPos) p.sec.toNat (p.ins, p.outs) k0 v0 with
          | ub => rw [hadd, C.bind_ub, C.bind_ub] at hrun; cases hrun
          | ok y =>
            obtain ⟨res, ms'⟩ := y
            have := ha res ms' hadd
            rw [hadd, C.bind_ok] at hrun
            dsimp only at hrun
            rw [if_pos this, C.pure_eq, C.bind_ok] at hrun
            cases hrun
        | stopped q hc hq _ =>
          rw [hrd] at hc
          rcases hc with hc | ⟨kb, r, hc, hne, hc2⟩
          · cases hc
          · cases hc; exact absurd hrd2 (hc2 _ _)
        | more q n hc hs' ht hsec hpos =>
          rw [hrd] at hc
          rcases hc with hc | ⟨kb, r, hc, hne, hc2⟩
          · cases hc
          · cases hc; rw [hrd2] at hc2; cases hc2

end PSBT
end UB
