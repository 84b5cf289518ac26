import Verif.Props.PSBTLife

/-
C82 undefined behaviour while a PSBT is parsed.
-/

namespace UB
open Spec

/-! ### Where it can happen -/

/-- C82: parsing any bytes into a PSBT object (fresh, or left by a parse that ended DONE) is undefined only if the bytes are the prefix, the unsigned
transaction and a number of complete maps and pairs, followed by one of
* an eight-byte length of a key or a value,
* a previous transaction that a conforming reader refuses (and which contains ff and four more bytes),
* a spent output whose script has an eight-byte length,
* a derivation whose value is shorter than a fingerprint,
* a 256th signature or derivation of one input or output;
or if the first pair is of the first kind (also if the length of its key is refused: the value is read all the same) or its value is no transaction. -/
theorem C82_only (junk : Nat → Bytes) (hj : ∀ n, (junk n).length = 65) {p : PSBT} (hp : p.Clean) (bs : Bytes)
    (h : (PSBT.fromStream junk p (.of bs)).1.status = .ub) :
    ∃ c, bs = psbtMagic ++ c ∧
      (HugeLen c ∨ (∃ k r, k.length < 2 ^ 31 ∧ c = varBytes k ++ r ∧ HugeLen r) ∨ (∃ k r, BadLen k ∧ c = k ++ r ∧ HugeLen r) ∨
       (∃ v r, v.length < 2 ^ 31 ∧ c = pairBytes ([0], v) ++ r ∧ readTx (v.drop (misread v.length)) = .bad ∧ Wide (v.drop (misread v.length))) ∨
       ∃ (v : Bytes) (x : Transaction) (pre : List (List Pair)) (qs : List Pair) (tail : Bytes), v.length < 2 ^ 31 ∧
         c = pairBytes ([0], v) ++ (mapsBytes pre ++ qs.flatMap pairBytes ++ tail) ∧
         (p.txStart.fromStream (.of (v.drop (misread v.length)))).1.HoldsBody x ∧
         ((∃ r, readTx (v.drop (misread v.length)) = .ok x r) ∨ (Fragile (v.drop (misread v.length)) ∧ Quirk (v.drop (misread v.length)))) ∧
         (∀ m ∈ pre, ∀ q ∈ m, PSBT.GoodPair q) ∧ (∀ q ∈ qs, PSBT.GoodPair q) ∧ pre.length ≤ x.ins.length + x.outs.length ∧
         BadRest x.ins.length pre.length qs tail) := by
  obtain ⟨c, rfl, h | ⟨vb, r, k, v, rfl, h2, h3, h4, h5, h6⟩⟩ := (PSBT.parse_ub junk hp bs).mp h
  · refine ⟨c, rfl, ?_⟩
    rcases h with h | h | h | ⟨v, r, h1, h2, h3⟩
    · exact Or.inl h
    · exact Or.inr (Or.inl h)
    · exact Or.inr (Or.inr (Or.inl h))
    · exact Or.inr (Or.inr (Or.inr (Or.inl ⟨v, r, h1, h2, C81_tx _ rfl _ h3⟩)))
  · refine ⟨_, rfl, Or.inr (Or.inr (Or.inr (Or.inr ?_)))⟩
    obtain ⟨x, b1, -, -, -, b5⟩ := Tx.done_body rfl h5
    have n1 := b1.ins.length_eq
    have n2 := b1.outs.length_eq
    obtain ⟨pre, ps, tail, e1, e2, e3, e4, e5⟩ := PSBT.loop_safe junk hj _ _ _ r [] (by exact h3) (by exact h4) rfl (by unfold PSBT.afterTx; dsimp only; omega)
      (PSBT.noMeta_metas _) (by simp) h6
    rw [PSBT.sections_afterTx] at e4
    have hz : (p.afterTx (p.txStart.fromStream (.of (vb.drop (misread vb.length)))).1 k v vb).sec.toNat = 0 := rfl
    rw [hz, Nat.zero_add] at e4 e5
    have hle : (UInt8.ofNat (1 + (p.txStart.fromStream (.of (vb.drop (misread vb.length)))).1.txIns.length + (p.txStart.fromStream (.of (vb.drop (misread vb.length)))).1.txOuts.length)).toNat ≤
        1 + (p.txStart.fromStream (.of (vb.drop (misread vb.length)))).1.txIns.length + (p.txStart.fromStream (.of (vb.drop (misread vb.length)))).1.txOuts.length := by
      rw [UInt8.toNat_ofNat']; exact Nat.mod_le _ _
    refine ⟨vb, x, pre, ps, tail, h2, ?_, b1, b5, e2, e3, by omega, ?_⟩
    · rw [← e1]; rfl
    · rw [← n1]; exact e5

/-- C82: bytes that follow do not matter: once the bytes have caused undefined behaviour, they cause it with any continuation too. -/
theorem C82_more (junk : Nat → Bytes) {p : PSBT} (hp : p.Clean) {bs : Bytes} (h : (PSBT.fromStream junk p (.of bs)).1.status = .ub) (x : Bytes) :
    (PSBT.fromStream junk p (.of (bs ++ x))).1.status = .ub := by
  obtain ⟨c, rfl, h | ⟨vb, r, k, v, rfl, h2, h3, h4, h5, h6⟩⟩ := (PSBT.parse_ub junk hp bs).mp h
  · exact (PSBT.parse_ub junk hp _).mpr ⟨c ++ x, by rw [List.append_assoc], Or.inl (PSBT.firstUb_append h x)⟩
  · refine (PSBT.parse_ub junk hp _).mpr ⟨_, by rw [List.append_assoc], Or.inr ⟨vb, r ++ x, k, v, by rw [List.append_assoc], h2, h3, h4, h5, ?_⟩⟩
    exact PSBT.loop_extend junk _ _ _ (p.afterTx (p.txStart.fromStream (.of (vb.drop (misread vb.length)))).1 k v vb) _ _ r x (by rw [List.length_append]; omega)
      (by exact h3) (by exact h4) (by exact h3) (by exact h4) rfl (by unfold PSBT.afterTx; dsimp only; omega) ⟨rfl, rfl, rfl, rfl, rfl⟩ h6

/-- C82: a document inside the limits of the library, all of it or any part from the start, followed by anything in the first case, is parsed without undefined behaviour. -/
theorem C82_document (junk : Nat → Bytes) {p : PSBT} (hp : p.Clean) {d : PsbtDoc} (hd : d.Ok) {bs rest : Bytes} (hb : bs <+: d.bytes ++ rest) :
    (PSBT.fromStream junk p (.of bs)).1.status ≠ .ub := by
  intro h
  obtain ⟨x, e⟩ := hb
  have := C82_more junk hp h x
  rw [e, (C57_parse_partial junk hp d hd rest).1] at this
  cases this

/-! ### Where it does happen -/

/-- A pair that `add` does not survive, behind the beginning of a document. -/
theorem PSBT.bad_pair_ub (junk : Nat → Bytes) (hj : ∀ n, (junk n).length = 65) {p : PSBT} (hp : p.Clean) {d : PsbtDoc} (hd : d.Ok) {pre post : List (List Pair)}
    {qs1 qs2 : List Pair} (hm : d.maps = pre ++ (qs1 ++ qs2) :: post) (h1 : 1 ≤ pre.length) {k v : Bytes} (hg : GoodPair (k, v)) (rest : Bytes)
    {c : UInt8} (hc : keyCode k = .ok c)
    (hin : ∀ j ti m, pre.length ≤ d.tx.ins.length → m.Read qs1 → InMeta.add (junk j) m ti c (varBytes k) (varBytes v) = .ub)
    (hout : ∀ j m, d.tx.ins.length < pre.length → m.Read qs1 → OutMeta.add (junk j) m c (varBytes k) (varBytes v) = .ub) :
    (fromStream junk p (.of (psbtMagic ++ pairBytes ([0], txBytes d.tx) ++ (mapsBytes pre ++ (qs1.flatMap pairBytes ++ (pairBytes (k, v) ++ rest)))))).1.status = .ub := by
  obtain ⟨t, ms, ha, hh⟩ := accepts_of_ok junk hp hd
  have hls := ha.sections
  rw [hm] at ha
  obtain ⟨Q, f, br, e, hk, hvr, hsec, hlt, ht, hi, ho, hmeta⟩ := before_pair junk hp ha (pairBytes (k, v) ++ rest)
  have hmeta := hmeta hj
  rw [e]
  have hx := hh { ({} : PSBT) with tx := t, ins := ms.1, outs := ms.2 } rfl rfl rfl
  have n1 : t.txIns.length = d.tx.ins.length := hx.tx.ins.length_eq
  have hle : pre.length < 1 + t.txIns.length + t.txOuts.length := by
    rw [hm, List.length_append, List.length_cons] at hls
    have : (UInt8.ofNat (1 + t.txIns.length + t.txOuts.length)).toNat ≤ 1 + t.txIns.length + t.txOuts.length := by
      rw [UInt8.toNat_ofNat']; exact Nat.mod_le _ _
    omega
  have key : addM Q.tx (junk Q.lastKeyPos) Q.sec.toNat (Q.ins, Q.outs) k v = .ub := by
    unfold addM
    rw [hsec, ht, if_neg (by omega), peek_dataPos k hg.2.1]
    change keyCode k >>= _ = _
    rw [hc, C.bind_ok]
    dsimp only
    by_cases hi' : pre.length ≤ d.tx.ins.length
    · have e1 := List.getElem?_eq_getElem (by omega : pre.length - 1 < Q.ins.length)
      rw [if_pos (by omega), e1, List.getElem?_eq_getElem (by omega : pre.length - 1 < t.txIns.length)]
      dsimp only
      rw [hin _ _ _ hi' (hmeta.inNow _ _ e1 (by omega))]
      rfl
    · have e1 := List.getElem?_eq_getElem (by omega : pre.length - 1 - t.txIns.length < Q.outs.length)
      rw [if_neg (by omega), e1]
      dsimp only
      rw [hout _ _ (by omega) (hmeta.outNow _ _ e1 (by omega))]
      rfl
  rcases loop_refused junk f hg hk hvr hlt (by intro r m he; dsimp only at he; rw [key] at he; cases he) rfl with ⟨r, m, he, -⟩ | ⟨-, he⟩
  · dsimp only at he
    rw [key] at he
    cases he
  · exact he

/-- C82: an eight-byte length where a key or, behind a key, a value starts, anywhere in a document, is undefined behaviour. -/
theorem C82_length (junk : Nat → Bytes) {p : PSBT} (hp : p.Clean) {d : PsbtDoc} (hd : d.Ok) {pre post : List (List Pair)} {qs1 qs2 : List Pair}
    (hm : d.maps = pre ++ (qs1 ++ qs2) :: post) {tail : Bytes}
    (ht : HugeLen tail ∨ ∃ k r, k ≠ [] ∧ k.length < 2 ^ 31 ∧ tail = varBytes k ++ r ∧ HugeLen r) :
    (PSBT.fromStream junk p (.of (psbtMagic ++ pairBytes ([0], txBytes d.tx) ++ (mapsBytes pre ++ (qs1.flatMap pairBytes ++ tail))))).1.status = .ub := by
  obtain ⟨t, ms, ha, hh⟩ := PSBT.accepts_of_ok junk hp hd
  rw [hm] at ha
  obtain ⟨Q, f, br, e, hk, hvr, hsec, hlt, -, -, -, -⟩ := PSBT.before_pair junk hp ha tail
  rw [e]
  have hbad : ∀ c : Bytes, HugeLen c → readVar c = .bad := fun c h => ((hugeLen_iff c).mp h).1
  have hu : HugeLen tail ∨ ∃ kb r, kb ≠ [] ∧ readVar tail = .ok kb r ∧ HugeLen r := by
    rcases ht with h | ⟨k, r, h1, h2, rfl, h3⟩
    · exact Or.inl h
    · exact Or.inr ⟨k, r, h1, readVar_varBytes k r h2, h3⟩
  have hne : tail ≠ [] := by
    rintro rfl
    rcases hu with ⟨_, h, _⟩ | ⟨_, _, _, h, _⟩ <;> cases h
  have hno : ∀ kb r, readVar tail = .ok kb r → kb ≠ [] ∧ readVar r = .bad := by
    intro kb r e
    rcases hu with h1 | ⟨kb', r', hne, h1, h2⟩
    · rw [hbad _ h1] at e; cases e
    · rw [h1] at e; cases e; exact ⟨hne, hbad _ h2⟩
  have hro := PSBT.round_out Q (junk Q.lastKeyPos) br tail hne hk hvr
  rw [PSBT.loop, if_pos ⟨by rw [PStream.avail_of]; simpa using hne, hlt⟩]
  generalize Q.round (junk Q.lastKeyPos) br (.of tail) = y at hro ⊢
  cases hro with
  | delim r2 k2 hk2 hc2 => exact absurd rfl (hno _ _ hc2).1
  | pair kb2 vb2 r2 r2' k2 v2 hk2 hv2 hc2 hne2 hr2 => rw [(hno _ _ hc2).2] at hr2; cases hr2
  | refused kb2 vb2 r2 r2' q2 hc2 hne2 hr2 => rw [(hno _ _ hc2).2] at hr2; cases hr2
  | stopped q2 hc2 hq2 hu2 =>
    refine hu2.mpr ?_
    rcases hu with h1 | ⟨kb', r', -, h1, h2⟩
    · exact Or.inl h1
    · exact Or.inr ⟨kb', r', h1, h2⟩
  | more q2 n hc2 =>
    exfalso
    rcases hc2 with hc2 | ⟨_, _, hc2, hne, hn⟩
    · rcases hu with h1 | ⟨kb', r', -, h1, h2⟩
      · rw [hbad _ h1] at hc2; cases hc2
      · rw [h1] at hc2; cases hc2
    · rw [(hno _ _ hc2).2] at hn; cases hn

theorem addDerivation_ub {junk : Bytes} {ds : List Derivation} {c : UInt8} {cm : Bool} {P : Pt} (h0 : P ≠ 0) {v : Bytes} (hv : v.length < 4 ∨ ds.length = 255) :
    addDerivation junk ds (varBytes (c :: secOf cm P)) (varBytes v) = .ub := by
  have hl := length_secOf cm P
  have e : varBytes (c :: secOf cm P) = UInt8.ofNat ((secOf cm P).length + 1) :: c :: secOf cm P := by
    unfold varBytes
    rw [compactSize_small (by rw [List.length_cons, hl]; split_ifs <;> omega)]
    rfl
  obtain ⟨p', e2, h'⟩ := ECPoint.fromSec_secOf (p := {}) junk cm (P := P) [] rfl rfl h0
  rw [List.append_nil] at e2
  rw [e]
  unfold addDerivation
  rw [if_neg (by simp only [List.length_cons, hl]; split_ifs <;> omega)]
  simp only [List.drop_succ_cons, List.drop_zero]
  by_cases h255 : ds.length = 255
  · rw [if_pos h255]
  · rw [if_neg h255, e2]
    dsimp only
    rw [if_neg (by rw [h'.status]; simp), if_neg (by rw [h'.status]; simp), (Derivation.load_ub _ v (by omega)).mpr (by omega)]
    rfl

/-- C82: a derivation entry (code 6 in an input, 2 in an output) with a correct public key and a value of less than four bytes, anywhere in a document, and
any 256th entry of an input or output: undefined behaviour. -/
theorem C82_derivation (junk : Nat → Bytes) (hj : ∀ n, (junk n).length = 65) {p : PSBT} (hp : p.Clean) {d : PsbtDoc} (hd : d.Ok) {pre post : List (List Pair)}
    {qs1 qs2 : List Pair} (hm : d.maps = pre ++ (qs1 ++ qs2) :: post) (h1 : 1 ≤ pre.length) {c : UInt8} (hc : c = if pre.length ≤ d.tx.ins.length then 6 else 2)
    {cm : Bool} {P : Pt} (h0 : P ≠ 0) {v : Bytes} (hv : v.length < 4 ∨ (v.length < 2 ^ 31 ∧ entries c qs1 = 255)) (rest : Bytes) :
    (PSBT.fromStream junk p (.of (psbtMagic ++ pairBytes ([0], txBytes d.tx) ++ (mapsBytes pre ++ (qs1.flatMap pairBytes ++ (pairBytes (c :: secOf cm P, v) ++ rest)))))).1.status = .ub := by
  have hl := length_secOf cm P
  have hl2 : (c :: secOf cm P).length < 252 := by rw [List.length_cons, hl]; split_ifs <;> omega
  refine PSBT.bad_pair_ub junk hj hp hd hm h1 ⟨List.cons_ne_nil _ _, by show (c :: secOf cm P).length < _; omega, by show v.length < _; omega⟩ rest
    (keyCode_cons c _ (misread_small hl2)) ?_ ?_
  · intro j ti m hi hr
    rw [if_pos hi] at hc
    subst hc
    unfold InMeta.add
    rw [if_neg (by decide), if_neg (by decide), if_neg (by decide), if_neg (by decide), if_neg (by decide), if_pos rfl, addDerivation_ub h0 (by rw [hr.keys]; omega)]
    rfl
  · intro j m hi hr
    rw [if_neg (by omega)] at hc
    subst hc
    unfold OutMeta.add
    rw [if_neg (by decide), if_neg (by decide), if_pos rfl, addDerivation_ub h0 (by rw [hr.keys]; omega)]
    rfl

/-- C82: a 256th signature (code 2) of an input, with a correct key and a signature that can be parsed: undefined behaviour. -/
theorem C82_signature (junk : Nat → Bytes) (hj : ∀ n, (junk n).length = 65) {p : PSBT} (hp : p.Clean) {d : PsbtDoc} (hd : d.Ok) {pre post : List (List Pair)}
    {qs1 qs2 : List Pair} (hm : d.maps = pre ++ (qs1 ++ qs2) :: post) (h1 : 1 ≤ pre.length) (hi : pre.length ≤ d.tx.ins.length) {cm : Bool} {P : Pt} (h0 : P ≠ 0)
    {v : Bytes} (hv : v.length < 253) (hs : (({} : Sig).fromStream (.of v)).1.status = .done) (h255 : entries 2 qs1 = 255) (rest : Bytes) :
    (PSBT.fromStream junk p (.of (psbtMagic ++ pairBytes ([0], txBytes d.tx) ++ (mapsBytes pre ++ (qs1.flatMap pairBytes ++ (pairBytes (2 :: secOf cm P, v) ++ rest)))))).1.status = .ub := by
  have hl := length_secOf cm P
  have hl2 : (2 :: secOf cm P).length < 252 := by rw [List.length_cons, hl]; split_ifs <;> omega
  refine PSBT.bad_pair_ub junk hj hp hd hm h1 ⟨List.cons_ne_nil _ _, by show (2 :: secOf cm P).length < _; omega, by show v.length < _; omega⟩ rest
    (keyCode_cons 2 _ (misread_small hl2)) ?_ (fun _ _ h => by omega)
  intro j ti m _ hr
  have e : varBytes (2 :: secOf cm P) = UInt8.ofNat ((secOf cm P).length + 1) :: 2 :: secOf cm P := by
    unfold varBytes
    rw [compactSize_small (by omega)]
    rfl
  have ev : (varBytes v).drop 1 = v := by
    unfold varBytes
    rw [compactSize_small (by omega)]
    rfl
  obtain ⟨p', e2, h'⟩ := ECPoint.fromSec_secOf (p := {}) (junk j) cm (P := P) [] rfl rfl h0
  rw [List.append_nil] at e2
  unfold InMeta.add
  rw [if_neg (by decide), if_neg (by decide), if_pos rfl, e, if_neg (by simp only [List.length_cons, hl]; split_ifs <;> omega), ev]
  simp only [List.drop_succ_cons, List.drop_zero]
  rw [e2]
  dsimp only
  change (({} : Sig).fromStream { bytes := v }).1.status = .done at hs
  rw [if_neg (by rw [h'.status]; simp), if_neg (by rw [h'.status]; simp), hs, if_neg (by simp), if_neg (by simp), if_pos (by rw [hr.sigs]; exact h255)]

/-- C82: a spent output (code 1 of an input) whose script has an eight-byte length: undefined behaviour. -/
theorem C82_output (junk : Nat → Bytes) (hj : ∀ n, (junk n).length = 65) {p : PSBT} (hp : p.Clean) {d : PsbtDoc} (hd : d.Ok) {pre post : List (List Pair)}
    {qs1 qs2 : List Pair} (hm : d.maps = pre ++ (qs1 ++ qs2) :: post) (h1 : 1 ≤ pre.length) (hi : pre.length ≤ d.tx.ins.length) {v : Bytes} (hv : v.length < 252)
    (hh : HugeLen (v.drop 8)) (rest : Bytes) :
    (PSBT.fromStream junk p (.of (psbtMagic ++ pairBytes ([0], txBytes d.tx) ++ (mapsBytes pre ++ (qs1.flatMap pairBytes ++ (pairBytes ([1], v) ++ rest)))))).1.status = .ub := by
  refine PSBT.bad_pair_ub junk hj hp hd hm h1 ⟨List.cons_ne_nil _ _, by show 1 < _; omega, by show v.length < _; omega⟩ rest
    (keyCode_cons 1 [] (misread_small (by decide))) ?_ (fun _ _ h => by omega)
  intro j ti m _ hr
  unfold InMeta.add
  rw [if_neg (by decide), if_pos rfl, if_neg (by decide), drop_dataPos v (by omega), misread_small hv, List.drop_zero]
  exact if_pos ((C81_txout m.txOut hr.txOut _).mpr hh)

/-- C82: a previous transaction (code 0 of an input) one of whose inputs has a script with an eight-byte length: undefined behaviour. -/
theorem C82_previous (junk : Nat → Bytes) (hj : ∀ n, (junk n).length = 65) {p : PSBT} (hp : p.Clean) {d : PsbtDoc} (hd : d.Ok) {pre post : List (List Pair)}
    {qs1 qs2 : List Pair} (hm : d.maps = pre ++ (qs1 ++ qs2) :: post) (h1 : 1 ≤ pre.length) (hi : pre.length ≤ d.tx.ins.length) {vb x : Bytes} {n : UInt8} {is : List In}
    (hv : vb.length = 4) (hn : is.length < n.toNat) (his : ∀ i ∈ is, ValidIn i ∧ i.witness = []) (hx : HugeLen (x.drop 36))
    (hl : (vb ++ n :: (is.flatMap inBytes ++ x)).length < 2 ^ 31) (hmis : misread (vb ++ n :: (is.flatMap inBytes ++ x)).length = 0) (rest : Bytes) :
    (PSBT.fromStream junk p (.of (psbtMagic ++ pairBytes ([0], txBytes d.tx) ++ (mapsBytes pre ++ (qs1.flatMap pairBytes ++
      (pairBytes ([0], vb ++ n :: (is.flatMap inBytes ++ x)) ++ rest)))))).1.status = .ub := by
  refine PSBT.bad_pair_ub junk hj hp hd hm h1 ⟨List.cons_ne_nil _ _, by show 1 < _; omega, hl⟩ rest
    (keyCode_cons 0 [] (misread_small (by decide))) ?_ (fun _ _ h => by omega)
  intro j ti m _ hr
  unfold InMeta.add
  rw [if_pos rfl, if_neg (by decide), drop_dataPos _ hl, hmis, List.drop_zero]
  exact if_pos (C81_tx_input {} rfl vb n is x hv hn his hx)

/-! ### Instances -/

/-- C82: an eight-byte length where the key or the value of the first pair starts is undefined, the latter also if the length of the key has been refused. -/
theorem C82_first (junk : Nat → Bytes) {p : PSBT} (hp : p.Clean) {c : Bytes}
    (h : HugeLen c ∨ (∃ k r, (k.length < 2 ^ 31 ∧ c = varBytes k ++ r ∨ BadLen k ∧ c = k ++ r) ∧ HugeLen r)) :
    (PSBT.fromStream junk p (.of (psbtMagic ++ c))).1.status = .ub := by
  refine (PSBT.parse_ub junk hp _).mpr ⟨c, rfl, Or.inl ?_⟩
  rcases h with h | ⟨k, r, ⟨h1, h2⟩ | ⟨h1, h2⟩, h3⟩
  · exact Or.inl h
  · exact Or.inr (Or.inl ⟨k, r, h1, h2, h3⟩)
  · exact Or.inr (Or.inr (Or.inl ⟨k, r, h1, h2, h3⟩))

example (junk : Nat → Bytes) (x : Bytes) : (PSBT.fromStream junk {} (.of (psbtMagic ++ ([0xfd, 5, 0] ++ (0xff :: 1 :: 2 :: 3 :: 4 :: 5 :: x))))).1.status = .ub :=
  C82_first junk PSBT.clean_fresh (Or.inr ⟨_, _, Or.inr ⟨⟨_, _, rfl, Or.inl ⟨rfl, rfl, by decide⟩⟩, rfl⟩, _, rfl, Or.inl (by simp)⟩)

example (junk : Nat → Bytes) (n : Nat) : (PSBT.fromStream junk {} (.of (exDoc.bytes.take n))).1.status ≠ .ub :=
  C82_document junk PSBT.clean_fresh exDoc_ok (rest := []) (by rw [List.append_nil]; exact List.take_prefix _ _)

example (junk : Nat → Bytes) (hj : ∀ n, (junk n).length = 65) (rest : Bytes) :
    (PSBT.fromStream junk {} (.of (psbtMagic ++ pairBytes ([0], txBytes exDoc.tx) ++ (mapsBytes [exDoc.globals] ++
      (([] : List Pair).flatMap pairBytes ++ (pairBytes (6 :: secOf true G, [1, 2, 3]) ++ rest)))))).1.status = .ub := by
  have hm : ∃ m post, exDoc.maps = [exDoc.globals] ++ ([] ++ m) :: post := ⟨_, _, rfl⟩
  obtain ⟨m, post, hm⟩ := hm
  exact C82_derivation junk hj PSBT.clean_fresh exDoc_ok hm (le_refl 1) (by simp [exDoc, exPsbtTx]) G_ne_zero (Or.inl (by decide)) rest

example (junk : Nat → Bytes) (tail : Bytes) (ht : HugeLen tail) :
    (PSBT.fromStream junk {} (.of (psbtMagic ++ pairBytes ([0], txBytes exDoc.tx) ++ (mapsBytes [exDoc.globals] ++
      (([] : List Pair).flatMap pairBytes ++ tail))))).1.status = .ub := by
  have hm : ∃ m post, exDoc.maps = [exDoc.globals] ++ ([] ++ m) :: post := ⟨_, _, rfl⟩
  obtain ⟨m, post, hm⟩ := hm
  exact C82_length junk PSBT.clean_fresh exDoc_ok hm (Or.inl ht)

example (junk : Nat → Bytes) (hj : ∀ n, (junk n).length = 65) (rest : Bytes) :
    (PSBT.fromStream junk {} (.of (psbtMagic ++ pairBytes ([0], txBytes exDoc.tx) ++ (mapsBytes [exDoc.globals] ++
      (([] : List Pair).flatMap pairBytes ++ (pairBytes ([1], zeros 8 ++ [0xff, 0, 0, 0, 0, 1]) ++ rest)))))).1.status = .ub := by
  have hm : ∃ m post, exDoc.maps = [exDoc.globals] ++ ([] ++ m) :: post := ⟨_, _, rfl⟩
  obtain ⟨m, post, hm⟩ := hm
  exact C82_output junk hj PSBT.clean_fresh exDoc_ok hm (le_refl 1) (by simp [exDoc, exPsbtTx]) (by decide) ⟨_, rfl, Or.inl (by decide)⟩ rest

example (junk : Nat → Bytes) (hj : ∀ n, (junk n).length = 65) (rest : Bytes) :
    ∃ v : Bytes, v.length = 47 ∧ (PSBT.fromStream junk {} (.of (psbtMagic ++ pairBytes ([0], txBytes exDoc.tx) ++ (mapsBytes [exDoc.globals] ++
      (([] : List Pair).flatMap pairBytes ++ (pairBytes ([0], v) ++ rest)))))).1.status = .ub := by
  have hm : ∃ m post, exDoc.maps = [exDoc.globals] ++ ([] ++ m) :: post := ⟨_, _, rfl⟩
  obtain ⟨m, post, hm⟩ := hm
  exact ⟨_, by decide, C82_previous junk hj PSBT.clean_fresh exDoc_ok hm (le_refl 1) (by simp [exDoc, exPsbtTx]) (vb := [2, 0, 0, 0]) (n := 1) (is := [])
    (x := zeros 36 ++ [0xff, 0, 0, 0, 0, 1]) rfl (by decide) (by simp) ⟨_, rfl, Or.inl (by decide)⟩ (by decide) (by decide) rest⟩

/-- The fields of an input with `n` derivations and `n` signatures. -/
def exFields (n : Nat) : List InField :=
  List.replicate n (.origin exOrigin) ++ List.replicate n (.partialSig exSigEntry)

/-- A document with such an input. -/
def exFull (n : Nat) : PsbtDoc := ⟨exPsbtTx, [], [exFields n], [[]]⟩

theorem exFull_ok {n : Nat} (hn : n ≤ 255) : (exFull n).Ok where
  wire := exPsbtTx_wire
  nonempty := exDoc_ok.nonempty
  nIns := exDoc_ok.nIns
  nOuts := exDoc_ok.nOuts
  count := exDoc_ok.count
  size := exDoc_ok.size
  exact := exDoc_ok.exact
  globals := by intro f hf; cases hf
  ins := by
    refine .cons ⟨?_, ?_, ?_⟩ .nil
    · intro f hf
      rcases List.mem_append.mp hf with hf | hf
      · rw [(List.mem_replicate.mp hf).2]; exact exOrigin_ok
      · rw [(List.mem_replicate.mp hf).2]; exact exSigEntry_ok
    · simpa [exFields, List.filterMap_append, List.filterMap_replicate, InField.sig] using hn
    · simpa [exFields, List.filterMap_append, List.filterMap_replicate, InField.key] using hn
  outs := rfl
  fields := by
    intro fs hfs
    simp only [exFull, List.mem_singleton] at hfs
    subst hfs
    exact ⟨fun f hf => (by cases hf), Nat.zero_le _⟩

theorem exFull_entries (n : Nat) (c : UInt8) (hc : c = 2 ∨ c = 6) :
    entries c ((exFields n).map InField.pair) = n := by
  have hl := length_secOf true G
  have h6 : ∀ c, IsEntry c (InField.origin exOrigin).pair.1 ↔ c = 6 := by
    intro c
    constructor
    · rintro ⟨s, h, -⟩; cases h; rfl
    · rintro rfl; exact ⟨_, rfl, Or.inl hl⟩
  have h2 : ∀ c, IsEntry c (InField.partialSig exSigEntry).pair.1 ↔ c = 2 := by
    intro c
    constructor
    · rintro ⟨s, h, -⟩; cases h; rfl
    · rintro rfl; exact ⟨_, rfl, Or.inl hl⟩
  unfold entries exFields
  rw [List.map_append, List.map_replicate, List.map_replicate, List.filter_append, List.filter_replicate, List.filter_replicate]
  simp only [h6, h2]
  rcases hc with rfl | rfl <;> simp

theorem exFull_maps (n : Nat) : ∃ post, (exFull n).maps = [[]] ++ ((exFields n).map InField.pair ++ []) :: post :=
  ⟨_, by rw [List.append_nil]; rfl⟩

example (junk : Nat → Bytes) (hj : ∀ n, (junk n).length = 65) (rest : Bytes) (n : Nat) (hn : n = 255) :
    (PSBT.fromStream junk {} (.of (psbtMagic ++ pairBytes ([0], txBytes (exFull n).tx) ++ (mapsBytes [[]] ++
      (((exFields n).map InField.pair).flatMap pairBytes ++ (pairBytes (6 :: secOf true G, zeros 4) ++ rest)))))).1.status = .ub := by
  obtain ⟨post, hm⟩ := exFull_maps n
  have hi : 1 ≤ (exFull n).tx.ins.length := le_refl 1
  exact C82_derivation junk hj PSBT.clean_fresh (exFull_ok (le_of_eq hn)) hm (le_refl 1) (c := 6) (if_pos hi).symm (cm := true) G_ne_zero (v := zeros 4)
    (Or.inr ⟨by decide, (exFull_entries n 6 (Or.inr rfl)).trans hn⟩) rest

example (junk : Nat → Bytes) (hj : ∀ n, (junk n).length = 65) (rest : Bytes) (n : Nat) (hn : n = 255) : ∃ v : Bytes,
    (PSBT.fromStream junk {} (.of (psbtMagic ++ pairBytes ([0], txBytes (exFull n).tx) ++ (mapsBytes [[]] ++
      (((exFields n).map InField.pair).flatMap pairBytes ++ (pairBytes (2 :: secOf true G, v) ++ rest)))))).1.status = .ub := by
  obtain ⟨v, hv, hs⟩ : ∃ v : Bytes, v.length < 253 ∧ (({} : Sig).fromStream (.of v)).1.status = .done :=
    ⟨[0x30, 6, 2, 1, 1, 2, 1, 2], by decide, by decide⟩
  obtain ⟨post, hm⟩ := exFull_maps n
  have hi : 1 ≤ (exFull n).tx.ins.length := le_refl 1
  exact ⟨v, C82_signature junk hj PSBT.clean_fresh (exFull_ok (le_of_eq hn)) hm (le_refl 1) hi (cm := true) G_ne_zero hv hs ((exFull_entries n 2 (Or.inl rfl)).trans hn) rest⟩

end UB
