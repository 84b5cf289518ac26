import Verif.Props.ElectrumMark
import Verif.Props.ElectrumMagic

/-
C72 (continued): documents without segwit inputs in which an extended key is no key.
-/

namespace UB
open Spec BN

namespace ElectrumTx

/-- The metadata of an input depend on what `from_stream` of the extended key says. -/
theorem legacyMeta_key (junk : Bytes) {i : In} {t : TxIn} {mk : Bytes} {k : ElectrumKey} (hm : mk.length = 5) (hk : k.Ok) (ht : t.Holds { i with script := electrumScript mk k })
    {r : HDPub} (hr : (({} : HDPub).fromStream junk (.of (k.xpub ++ (leBytes 2 k.change ++ leBytes 2 k.index)))).1 = r) :
    (r.key.status = .ub → legacyMeta junk t = .ub) ∧ (r.key.status ≠ .ub → r.key.status ≠ .done → legacyMeta junk t = .ok none) := by
  have hsl : (electrumScript mk k).length = 87 := by
    simp [electrumScript, hm, hk.xpub]
  have hsc : t.scriptSig.Holds (electrumScript mk k) := ht.body.script
  have hser : serialize t.scriptSig.toStream 88 0 .raw = .ok (88, 87 :: electrumScript mk k) := by
    have hv : varBytes (electrumScript mk k) = 87 :: electrumScript mk k := by
      rw [varBytes, hsl]
      rfl
    unfold serialize
    dsimp only
    rw [Script.toStream_eq _ _ hsc (by rw [hsl]; decide), hv, C.bind_ok]
    have hw : window (some 88) 0 (87 :: electrumScript mk k) = 87 :: electrumScript mk k := by
      unfold window
      dsimp only
      rw [List.drop_zero, List.take_of_length_le (by rw [List.length_cons, hsl])]
    rw [hw, List.length_cons, hsl]
    simp [zeros]
  have hdrop : (87 :: electrumScript mk k).drop 6 = k.xpub ++ (leBytes 2 k.change ++ leBytes 2 k.index) := by
    rw [List.drop_succ_cons, electrumScript, List.drop_left' hm]
  have hlen : t.scriptSig.length = 88 := by
    rw [Script.length_eq _ _ hsc (by rw [hsl]; decide), varBytes, List.length_append, hsl]
    rfl
  have hr' : (({} : HDPub).fromStream junk { bytes := k.xpub ++ (leBytes 2 k.change ++ leBytes 2 k.index) }).1 = r := hr
  unfold legacyMeta
  rw [if_neg (by rw [hlen]; simp), hser, C.bind_ok]
  dsimp only
  rw [hdrop, hr']
  exact ⟨fun h => by rw [if_pos h], fun h1 h2 => by rw [if_neg h1, if_pos h2]⟩

/-- The loop over the inputs up to the first one that is not accepted. -/
theorem legacyMetas_until (junk : Bytes) {bad : In} (more : List In) : ∀ (is : List In) (ks : List (Bytes × ElectrumKey)) (ts : List TxIn),
    is.length = ks.length → (∀ k ∈ ks, k.1.length = 5 ∧ k.2.Ok ∧ k.2.Good) →
    List.Forall₂ TxIn.Holds ts (is.zipWith (fun i k => { i with script := electrumScript k.1 k.2 }) ks ++ bad :: more) →
    ((∀ t : TxIn, t.Holds bad → legacyMeta junk t = .ub) → legacyMetas junk ts = .ub) ∧
    ((∀ t : TxIn, t.Holds bad → legacyMeta junk t = .ok none) → ∃ ts' ms, legacyMetas junk ts = .ok (ts', ms, false))
  | [], [], ts, _, _, h => by
    cases h with
    | cons h1 h2 =>
      constructor
      · intro hb
        rw [legacyMetas, hb _ h1]
        rfl
      · intro hb
        rw [legacyMetas, hb _ h1, C.bind_ok]
        exact ⟨_, _, rfl⟩
  | [], _ :: _, _, h, _, _ => by simp at h
  | _ :: _, [], _, h, _, _ => by simp at h
  | i :: is, k :: ks, ts, hl, hk, h => by
    rw [List.zipWith_cons_cons, List.cons_append] at h
    cases h with
    | cons h1 h2 =>
      rename_i t ts
      obtain ⟨a1, a2, a3⟩ := hk k (by simp)
      obtain ⟨t', m, e1, -, -⟩ := legacyMeta_eq junk a1 a2 a3 h1
      obtain ⟨f1, f2⟩ := legacyMetas_until junk more is ks ts (by simpa using hl) (fun b hb => hk b (by simp [hb])) h2
      constructor
      · intro hb
        rw [legacyMetas, e1, C.bind_ok]
        dsimp only
        rw [f1 hb]
        rfl
      · intro hb
        obtain ⟨ts', ms, f3⟩ := f2 hb
        refine ⟨t' :: ts', m :: ms, ?_⟩
        rw [legacyMetas, e1, C.bind_ok]
        dsimp only
        rw [f3, C.bind_ok]
        rfl

/-- From the loop to `from_stream`. -/
theorem fromStream_legacy (junk : Bytes) (fuel : Nat) {e : ElectrumTx} (he : e.status = .done) {y : Transaction} (h : WireTx y) (hi : y.ins.length < 253)
    (ho : y.outs.length < 253) (hy0 : y.ins ≠ []) (rest : Bytes) {st : Status}
    (hm : ∀ ts : List TxIn, List.Forall₂ TxIn.Holds ts y.ins → (st = .ub ∧ legacyMetas junk ts = .ub) ∨ (st = .failed ∧ ∃ ts' ms, legacyMetas junk ts = .ok (ts', ms, false))) :
    ∃ e' : ElectrumTx, e.fromStream junk fuel (.of (electrumMagic ++ txBytes y ++ rest)) = some (e', (electrumMagic ++ txBytes y).length, .of rest) ∧ e'.status = st := by
  have hfeed := Tx.feed {} [] (txBytes y ++ rest) (Or.inl ⟨rfl, rfl⟩)
  unfold Tx.Out at hfeed
  rw [List.nil_append, readTx_complete y h hy0 (by omega) ho rest] at hfeed
  obtain ⟨p1, p2, p3, p4⟩ := hfeed
  have p5 : (({} : Tx).fromStream (.of (txBytes y ++ rest))).2.1 = (txBytes y).length := by
    rw [List.length_append, List.length_nil] at p3
    omega
  have hav : (PStream.of (txBytes y ++ rest)).avail = true := by
    rw [txBytes]
    split_ifs <;> rfl
  unfold fromStream
  rw [he, if_neg (by simp), start_fresh he, List.append_assoc]
  dsimp only
  rw [List.drop_zero, readMagic_all]
  dsimp only
  rw [if_pos rfl]
  unfold ElectrumTx.readTx
  rw [if_pos ⟨rfl, hav, by decide⟩]
  dsimp only
  rcases hm _ p2.ins with ⟨rfl, m1⟩ | ⟨rfl, ts', ms, m1⟩
  · rw [p1, if_neg (by decide), if_pos rfl, m1, p4, p5]
    dsimp only
    rw [List.length_append, show electrumMagic.length = 6 from rfl]
    exact ⟨_, rfl, rfl⟩
  · rw [p1, if_neg (by decide), if_pos rfl, m1, p4, p5]
    dsimp only
    rw [if_neg (by decide), List.length_append, show electrumMagic.length = 6 from rfl]
    exact ⟨_, rfl, rfl⟩

end ElectrumTx

open ElectrumTx in
/-- C72: a document without segwit inputs is refused if an extended key in it has unknown version bytes or contains no point, however many inputs before it are well
formed (and in contrast to documents with segwit inputs, `C72_hang` and `C72_any_keys`). -/
theorem C72_legacy_bad_key (junk : Bytes) (hj : junk.length = 65) (hn : ECPoint.NoPoint ((junk.drop 1).take 32)) (fuel : Nat) {e : ElectrumTx} (he : e.status = .done)
    {y : Transaction} (h : WireTx y) (hi : y.ins.length < 253) (ho : y.outs.length < 253) {is more : List In} {bad : In} {ks : List (Bytes × ElectrumKey)} {mk : Bytes}
    {k : ElectrumKey} (hy : y.ins = is.zipWith (fun i k => { i with script := electrumScript k.1 k.2 }) ks ++ { bad with script := electrumScript mk k } :: more)
    (hk : ∀ k ∈ ks, k.1.length = 5 ∧ k.2.Ok ∧ k.2.Good) (hl : is.length = ks.length) (hm : mk.length = 5) (hko : k.Ok)
    (hb : findPrefix pubPrefixes (k.xpub.take 4) networks = none ∨ (KeyShaped k.xpub ∧ ¬ HasPoint k.xpub)) (rest : Bytes) :
    ∃ e' : ElectrumTx, e.fromStream junk fuel (.of (electrumMagic ++ txBytes y ++ rest)) = some (e', (electrumMagic ++ txBytes y).length, .of rest) ∧ e'.status = .failed := by
  refine fromStream_legacy junk fuel he h hi ho (by rw [hy]; simp) rest fun ts hts => .inr ⟨rfl, ?_⟩
  rw [hy] at hts
  refine (legacyMetas_until junk more is ks ts hl hk hts).2 fun t ht => ?_
  rcases hb with hb | ⟨hb, hp⟩
  · obtain ⟨r, r1, r2⟩ := hd_unknown junk (v := k.xpub.take 4) (by have := hko.xpub; simp; omega) hb (k.xpub.drop 4 ++ (leBytes 2 k.change ++ leBytes 2 k.index))
    rw [← List.append_assoc, List.take_append_drop] at r1
    exact (legacyMeta_key junk hm hko ht (by rw [r1])).2 (by rw [r2]; decide) (by rw [r2]; decide)
  · obtain ⟨r, r1, r2⟩ := hd_any junk hj hn hb (leBytes 2 k.change ++ leBytes 2 k.index)
    exact (legacyMeta_key junk hm hko ht (by rw [r1])).2 r2.1 fun hd => hp (r2.2 hd)

open ElectrumTx in
/-- C72, code and claim disagree: a public key that starts with the byte 4 is undefined in these documents as well. -/
theorem C72_legacy_mark_undefined (junk : Bytes) (fuel : Nat) {e : ElectrumTx} (he : e.status = .done)
    {y : Transaction} (h : WireTx y) (hi : y.ins.length < 253) (ho : y.outs.length < 253) {is more : List In} {bad : In} {ks : List (Bytes × ElectrumKey)} {mk : Bytes}
    {k : ElectrumKey} (hy : y.ins = is.zipWith (fun i k => { i with script := electrumScript k.1 k.2 }) ks ++ { bad with script := electrumScript mk k } :: more)
    (hk : ∀ k ∈ ks, k.1.length = 5 ∧ k.2.Ok ∧ k.2.Good) (hl : is.length = ks.length) (hm : mk.length = 5) (hko : k.Ok)
    (hb : KnownVersion k.xpub) (h4 : Marked k.xpub) (rest : Bytes) :
    ∃ e' : ElectrumTx, e.fromStream junk fuel (.of (electrumMagic ++ txBytes y ++ rest)) = some (e', (electrumMagic ++ txBytes y).length, .of rest) ∧ e'.status = .ub := by
  refine fromStream_legacy junk fuel he h hi ho (by rw [hy]; simp) rest fun ts hts => .inl ⟨rfl, ?_⟩
  rw [hy] at hts
  refine (legacyMetas_until junk more is ks ts hl hk hts).1 fun t ht => ?_
  obtain ⟨r, r1, r2⟩ := hd_marked junk hb h4 (leBytes 2 k.change ++ leBytes 2 k.index)
  exact (legacyMeta_key junk hm hko ht (by rw [r1])).1 r2

/-! ### Examples -/

/-- A transaction with one input, which has the entry `k` as its script. -/
def exLegacyKeyTx (k : ElectrumKey) : Transaction := ⟨2, [⟨zeros 32, 0, electrumScript (zeros 5) k, 0xfffffffe, []⟩], [⟨1000, [0x51]⟩], 0⟩

theorem exLegacyKeyTx_wire {k : ElectrumKey} (hk : k.Ok) : WireTx (exLegacyKeyTx k) := by
  have hsl : (electrumScript (zeros 5) k).length = 87 := by simp [electrumScript, hk.xpub, zeros]
  refine ⟨show 2 < 2 ^ 32 by decide, show 0 < 2 ^ 32 by decide, ?_, ?_, ?_⟩
  · intro i hi
    rw [exLegacyKeyTx, List.mem_singleton] at hi
    subst hi
    exact ⟨rfl, show 0 < 2 ^ 32 by decide, by dsimp only; rw [hsl]; decide, show 0xfffffffe < 2 ^ 32 by decide⟩
  · intro o ho
    rw [exLegacyKeyTx, List.mem_singleton] at ho
    subst ho
    exact ⟨by decide, by decide⟩
  · intro i hi
    rw [exLegacyKeyTx, List.mem_singleton] at hi
    subst hi
    simp

/-- C72_legacy_bad_key: unknown version bytes. -/
example (rest : Bytes) (fuel : Nat) : ∃ e' : ElectrumTx,
    ({} : ElectrumTx).fromStream (List.replicate 65 0xff) fuel (.of (electrumMagic ++ txBytes (exLegacyKeyTx ⟨0, zeros 7, zeros 78, 0, 0⟩) ++ rest)) =
      some (e', (electrumMagic ++ txBytes (exLegacyKeyTx ⟨0, zeros 7, zeros 78, 0, 0⟩)).length, .of rest) ∧ e'.status = .failed :=
  C72_legacy_bad_key _ rfl (by apply ECPoint.noPoint_of_large; unfold secpP; decide +kernel) fuel rfl (exLegacyKeyTx_wire ⟨by decide, rfl, rfl, by decide, by decide⟩)
    (Nat.lt_of_sub_eq_succ rfl) (Nat.lt_of_sub_eq_succ rfl) (is := []) (ks := []) (more := []) (bad := ⟨zeros 32, 0, [], 0xfffffffe, []⟩) (mk := zeros 5) rfl (by simp) rfl rfl
    ⟨by decide, rfl, rfl, by decide, by decide⟩ (.inl (by decide +kernel)) rest

/-- C72_legacy_mark_undefined: the version bytes of `zpub`, and a key that starts with 4. -/
example (junk rest : Bytes) (fuel : Nat) : ∃ e' : ElectrumTx,
    ({} : ElectrumTx).fromStream junk fuel (.of (electrumMagic ++ txBytes (exLegacyKeyTx ⟨0, zeros 7, mainnet.zpub ++ (zeros 41 ++ 0x04 :: zeros 32), 0, 0⟩) ++ rest)) =
      some (e', (electrumMagic ++ txBytes (exLegacyKeyTx ⟨0, zeros 7, mainnet.zpub ++ (zeros 41 ++ 0x04 :: zeros 32), 0, 0⟩)).length, .of rest) ∧ e'.status = .ub :=
  C72_legacy_mark_undefined junk fuel rfl (exLegacyKeyTx_wire ⟨by decide, rfl, rfl, by decide, by decide⟩)
    (Nat.lt_of_sub_eq_succ rfl) (Nat.lt_of_sub_eq_succ rfl) (is := []) (ks := []) (more := []) (bad := ⟨zeros 32, 0, [], 0xfffffffe, []⟩) (mk := zeros 5) rfl (by simp) rfl rfl
    ⟨by decide, rfl, rfl, by decide, by decide⟩ ⟨rfl, mainnet, by decide, .p2wpkh, rfl⟩ (by decide) rest

end UB
