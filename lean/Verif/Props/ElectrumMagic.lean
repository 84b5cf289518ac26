import Verif.Props.ElectrumPieces

/-
C72 (continued): documents which do not begin with the magic bytes are refused.
-/

namespace UB
open Spec

namespace ElectrumTx

theorem readMagic_wrong : ∀ (p m : Bytes) (b c : UInt8) (r : Bytes), b ≠ c → readMagic (p ++ b :: m) (.of (p ++ c :: r)) = (false, p.length + 1, .of r)
  | [], m, b, c, r, h => by
    rw [List.nil_append, List.nil_append, readMagic, if_pos (show (PStream.of (c :: r)).avail = true from rfl), show (PStream.of (c :: r)).readByte = (c, .of r) from rfl]
    dsimp only
    rw [if_neg (fun h' => h h'.symm)]
    rfl
  | a :: p, m, b, c, r, h => by
    rw [List.cons_append, List.cons_append, readMagic, if_pos (show (PStream.of (a :: (p ++ c :: r))).avail = true from rfl),
      show (PStream.of (a :: (p ++ c :: r))).readByte = (a, .of (p ++ c :: r)) from rfl]
    dsimp only
    rw [if_pos rfl, readMagic_wrong p m b c r h]
    rfl

theorem fragile_nil : ¬ Fragile [] := by
  rintro ⟨hdr, n, v, q, is, o, r, hh, hp, -, -⟩
  have h1 := (List.append_eq_nil_iff.mp hp.symm).1
  have h2 := hh.length
  rw [h1] at h2
  simp at h2

theorem wrong_feed (junk : Bytes) (fuel : Nat) {g m : Bytes} {b c : UInt8} {r : Bytes} (hg : electrumMagic = g ++ b :: m) (hb : b ≠ c) :
    ∀ (cs : List Bytes) {e : ElectrumTx} {p : Bytes}, Early e p → p.length ≤ g.length → p ++ cs.flatten = g ++ c :: r →
      ∃ e' : ElectrumTx, feedPiecesOpt (fromStream junk fuel) ElectrumTx.status e cs = some (e', g.length + 1 - p.length) ∧ e'.status = .failed
  | [], e, p, h, hp, hcs => by
    have := congrArg List.length hcs
    simp only [List.flatten_nil, List.append_nil, List.length_append, List.length_cons] at this
    omega
  | a :: cs, e, p, h, hp, hcs => by
    rw [List.flatten_cons] at hcs
    obtain ⟨q, rfl, e1⟩ : ∃ q, g = p ++ q ∧ a ++ cs.flatten = q ++ c :: r := by
      rcases List.append_eq_append_iff.mp hcs with ⟨q, h1, h2⟩ | ⟨q, h1, h2⟩
      · exact ⟨q, h1, h2⟩
      · have h3 := congrArg List.length h1
        rw [List.length_append] at h3
        have : q = [] := List.eq_nil_of_length_eq_zero (by omega)
        subst this
        rw [List.append_nil] at h1
        rw [List.nil_append] at h2
        exact ⟨[], by rw [List.append_nil, h1], by rw [List.nil_append, h2]⟩
    have hml := congrArg List.length hg
    rw [show electrumMagic.length = 6 from rfl] at hml
    simp only [List.length_append, List.length_cons] at hml
    rw [List.length_append] at hp ⊢
    by_cases ha : a.length ≤ q.length
    · obtain ⟨q', rfl, e2⟩ : ∃ q', q = a ++ q' ∧ cs.flatten = q' ++ c :: r := by
        rcases List.append_eq_append_iff.mp e1 with ⟨q', h1, h2⟩ | ⟨q', h1, h2⟩
        · exact ⟨q', h1, h2⟩
        · have h3 := congrArg List.length h1
          rw [List.length_append] at h3
          have : q' = [] := List.eq_nil_of_length_eq_zero (by omega)
          subst this
          rw [List.append_nil] at h1
          rw [List.nil_append] at h2
          exact ⟨[], by rw [List.append_nil, h1], by rw [List.nil_append, h2]⟩
      rw [List.length_append] at hml ⊢
      have hd : (p ++ a).drop 6 = [] := List.drop_eq_nil_of_le (by rw [List.length_append]; omega)
      obtain ⟨e', f1, f2⟩ := early_more junk fuel (c := a) (D := []) h ⟨q' ++ b :: m, by rw [hg]; simp⟩ (by rw [hd]; rfl) (by rw [hd]; exact fragile_nil)
      obtain ⟨e'', g1, g2⟩ := wrong_feed junk fuel (r := r) hg hb cs f2 (by simp only [List.length_append]; omega) (by rw [e2]; simp)
      refine ⟨e'', ?_, g2⟩
      unfold feedPiecesOpt
      rw [f1]
      dsimp only
      rw [if_pos f2.status, g1]
      dsimp only
      simp only [List.length_append]
      congr 2
      omega
    · obtain ⟨r', rfl⟩ : ∃ r', a = q ++ c :: r' := by
        rcases List.append_eq_append_iff.mp e1 with ⟨q', h1, h2⟩ | ⟨q', h1, h2⟩
        · have h3 := congrArg List.length h1
          rw [List.length_append] at h3
          omega
        · cases q' with
          | nil => rw [List.append_nil] at h1; exact absurd (by rw [h1]) ha
          | cons x q' =>
            rw [List.cons_append, List.cons.injEq] at h2
            exact ⟨q', by rw [h1, h2.1]⟩
      have hdrop : magic.drop e.bytesParsed = q ++ b :: m := by
        rw [h.parsed, show magic = electrumMagic from rfl, hg, List.append_assoc, List.drop_left' rfl]
      have hcall : fromStream junk fuel e (.of (q ++ c :: r')) = some (e.stop .failed (q.length + 1) (.of r')) := by
        unfold fromStream
        rw [if_neg (by rw [h.status]; decide), start_incomplete h.status]
        dsimp only
        rw [hdrop, readMagic_wrong q m b c r' hb]
        rfl
      unfold feedPiecesOpt
      rw [hcall]
      dsimp only
      rw [if_neg (by unfold stop; simp)]
      refine ⟨(e.stop .failed (q.length + 1) (.of r')).1, ?_, rfl⟩
      unfold stop
      dsimp only
      congr 2
      omega

end ElectrumTx

open ElectrumTx in
/-- C72: data that departs from the six magic bytes `45 50 54 46 ff 00` is refused in whatever pieces it comes: the calls read up to the first wrong byte, and the object
has failed. -/
theorem C72_wrong_magic (junk : Bytes) (fuel : Nat) {e : ElectrumTx} (he : e.status = .done) (i : Nat) (hi : i < 6) (c : UInt8) (hc : electrumMagic[i]? ≠ some c) (r : Bytes)
    {cs : List Bytes} (hcs : cs.flatten = electrumMagic.take i ++ c :: r) :
    ∃ e' : ElectrumTx, feedPiecesOpt (fromStream junk fuel) ElectrumTx.status e cs = some (e', i + 1) ∧ e'.status = .failed := by
  have h0 : cs ≠ [] := by
    rintro rfl
    have := congrArg List.length hcs
    simp at this
  rw [feed_start junk fuel he h0]
  have hl : i < electrumMagic.length := hi
  have hg : electrumMagic = electrumMagic.take i ++ electrumMagic[i] :: electrumMagic.drop (i + 1) := by
    rw [← List.drop_eq_getElem_cons hl, List.take_append_drop]
  rw [List.getElem?_eq_getElem hl] at hc
  obtain ⟨e', h1, h2⟩ := wrong_feed junk fuel (r := r) hg (fun h => hc (by rw [h])) cs early_fresh (by simp) (by rw [List.nil_append, hcs])
  refine ⟨e', ?_, h2⟩
  rw [h1, List.length_take, List.length_nil]
  congr 2
  omega

/-- A PSBT is refused at its first byte, and a document of an unknown version at its last magic byte, here in two pieces. -/
example (junk : Bytes) (fuel : Nat) (r : Bytes) :
    (∃ e' : ElectrumTx, feedPiecesOpt (ElectrumTx.fromStream junk fuel) ElectrumTx.status {} [psbtMagic ++ r] = some (e', 1) ∧ e'.status = .failed) ∧
    ∃ e' : ElectrumTx, feedPiecesOpt (ElectrumTx.fromStream junk fuel) ElectrumTx.status {} [[0x45, 0x50, 0x54], [0x46, 0xff, 0x01] ++ r] = some (e', 6) ∧ e'.status = .failed :=
  ⟨C72_wrong_magic junk fuel rfl 0 (by decide) 0x70 (by decide) ([0x73, 0x62, 0x74, 0xff] ++ r) (by simp [psbtMagic]),
    C72_wrong_magic junk fuel rfl 5 (by decide) 0x01 (by decide) r (by simp [electrumMagic])⟩

namespace ElectrumTx

theorem legacyMeta_bad (junk : Bytes) {t : TxIn} {i : In} (h : t.Holds i) (hw : i.script.length < 2 ^ 31) (hb : i.script.length ≠ 87) : legacyMeta junk t = .ok none := by
  unfold legacyMeta
  have hl : t.scriptSig.scriptLen = i.script.length := h.body.script.1
  rw [if_pos]
  unfold Script.length
  rw [hl, lenVarIntN_eq _ (by omega)]
  by_cases h3 : i.script.length < 253
  · rw [compactSize_small h3, List.length_singleton]
    omega
  · omega

theorem legacyMetas_bad (junk : Bytes) {bad : In} (hw : bad.script.length < 2 ^ 31) (hb : bad.script.length ≠ 87) (more : List In) : ∀ (is : List In) (ks : List (Bytes × ElectrumKey)) (ts : List TxIn),
    is.length = ks.length → (∀ k ∈ ks, k.1.length = 5 ∧ k.2.Ok ∧ k.2.Good) →
    List.Forall₂ TxIn.Holds ts (is.zipWith (fun i k => { i with script := electrumScript k.1 k.2 }) ks ++ bad :: more) →
    ∃ ts' ms, legacyMetas junk ts = .ok (ts', ms, false)
  | [], [], ts, _, _, h => by
    cases h with
    | cons h1 h2 =>
      rw [legacyMetas, legacyMeta_bad junk h1 hw hb, C.bind_ok]
      exact ⟨_, _, rfl⟩
  | [], _ :: _, _, h, _, _ => by simp at h
  | _ :: _, [], _, h, _, _ => by simp at h
  | i :: is, k :: ks, ts, hl, hk, h => by
    rw [List.zipWith_cons_cons, List.cons_append] at h
    cases h with
    | cons h1 h2 =>
      rename_i t ts
      obtain ⟨a1, a2, a3⟩ := hk k (by simp)
      obtain ⟨t', m, e1, -, -⟩ := legacyMeta_eq junk a1 a2 a3 h1
      obtain ⟨ts', ms, f1⟩ := legacyMetas_bad junk hw hb more is ks ts (by simpa using hl) (fun b hb => hk b (by simp [hb])) h2
      refine ⟨t' :: ts', m :: ms, ?_⟩
      rw [legacyMetas, e1, C.bind_ok]
      dsimp only
      rw [f1, C.bind_ok]
      rfl

end ElectrumTx

open ElectrumTx in
/-- C72: a complete transaction behind the magic bytes in which some input has no script of 87 bytes, as the metadata of Electrum has, is refused, however many inputs before it
are well formed.  A signed transaction, or one with empty scripts, is an instance. -/
theorem C72_no_metadata (junk : Bytes) (fuel : Nat) {e : ElectrumTx} (he : e.status = .done) {y : Transaction} (h : WireTx y) (hi : y.ins.length < 253)
    (ho : y.outs.length < 253) {is more : List In} {bad : In} {ks : List (Bytes × ElectrumKey)}
    (hy : y.ins = is.zipWith (fun i k => { i with script := electrumScript k.1 k.2 }) ks ++ bad :: more) (hk : ∀ k ∈ ks, k.1.length = 5 ∧ k.2.Ok ∧ k.2.Good)
    (hl : is.length = ks.length) (hb : bad.script.length ≠ 87) (rest : Bytes) :
    ∃ e' : ElectrumTx, e.fromStream junk fuel (.of (electrumMagic ++ txBytes y ++ rest)) = some (e', (electrumMagic ++ txBytes y).length, .of rest) ∧ e'.status = .failed := by
  have hy0 : y.ins ≠ [] := by rw [hy]; simp
  have hfeed := Tx.feed {} [] (txBytes y ++ rest) (Or.inl ⟨rfl, rfl⟩)
  unfold Tx.Out at hfeed
  rw [List.nil_append, readTx_complete y h hy0 (by omega) ho rest] at hfeed
  obtain ⟨p1, p2, p3, p4⟩ := hfeed
  have p5 : (({} : Tx).fromStream (.of (txBytes y ++ rest))).2.1 = (txBytes y).length := by
    rw [List.length_append, List.length_nil] at p3
    omega
  obtain ⟨ts', ms, m1⟩ := legacyMetas_bad junk (h.ins bad (by rw [hy]; simp)).script hb more is ks _ hl hk (by have := p2.ins; rwa [hy] at this)
  have hav : (PStream.of (txBytes y ++ rest)).avail = true := by
    rw [txBytes]
    split_ifs <;> rfl
  unfold fromStream
  rw [he, if_neg (by simp), start_fresh he, List.append_assoc]
  dsimp only
  rw [List.drop_zero, readMagic_all]
  dsimp only
  rw [if_pos rfl]
  unfold ElectrumTx.readTx
  rw [if_pos ⟨rfl, hav, by decide⟩]
  dsimp only
  rw [p1, if_neg (by decide), if_pos rfl, m1, p4, p5]
  dsimp only
  rw [if_neg (by decide), List.length_append, show electrumMagic.length = 6 from rfl]
  exact ⟨_, rfl, rfl⟩

/-- The transaction of `exTxSpec` itself, without metadata, is refused. -/
example (junk : Bytes) (fuel : Nat) : ∃ e' : ElectrumTx, ({} : ElectrumTx).fromStream junk fuel (.of (electrumMagic ++ txBytes exTxSpec ++ [])) =
    some (e', (electrumMagic ++ txBytes exTxSpec).length, .of []) ∧ e'.status = .failed :=
  C72_no_metadata junk fuel rfl exTxSpec_wire (by decide) (by decide) (is := []) (ks := []) rfl (by simp) rfl (by decide) []

end UB
