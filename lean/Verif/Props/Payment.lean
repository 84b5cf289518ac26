import Verif.Model.Payment
import Verif.Spec.Spend
import Verif.Props.TxBuild
import Verif.Props.TxSign
import Verif.Props.Electrum
import Verif.Props.Text
import Verif.Props.Build
import Verif.Props.Receive

/-
C109: a payment made with the functions of the library, from the outputs to be spent to the text that is sent to the network.
-/

namespace UB
open Spec
namespace Payment

attribute [local irreducible] Spec.hash256 doubleSha hash160 Spec.hash160 checkedText

/-- An output to be spent, with the transaction it is in and the secret of the key. -/
structure Fund where
  coin : Coin
  parent : Transaction
  d : Nat

namespace Fund

/-- The hash of the key. -/
noncomputable def keyHash (f : Fund) : Bytes := Spec.hash160 (secOf f.coin.key.pubKey.compressed (f.d • G))

/-- The script of an output of the kind that pays to the key. -/
noncomputable def script (f : Fund) : Bytes :=
  match f.coin.kind with
  | .legacy => p2pkhScript f.keyHash
  | .nested => p2shScript (Spec.hash160 (p2wpkhScript f.keyHash))
  | .segwit => p2wpkhScript f.keyHash

/-- The caller's data fit the output, and the key is theirs. -/
structure Owned (f : Fund) : Prop where
  source : f.coin.source.Holds f.parent
  size : (segwitBytes f.parent).length < 2 ^ 60
  key : f.coin.key.Holds f.d
  out : f.parent.outs[f.coin.n.toNat]? = some ⟨f.coin.amount.toNat, f.script⟩

/-- The input before it is signed. -/
noncomputable def input (f : Fund) : In := ⟨Spec.hash256 (legacyBytes f.parent), f.coin.n.toNat, [], f.coin.seq.toNat, []⟩

/-- What has to be signed for input `i`. -/
noncomputable def digest (f : Fund) (x : Transaction) (i : Nat) : Bytes :=
  match f.coin.kind with
  | .legacy => legacySigHash x i (p2pkhScript f.keyHash) 1
  | _ => segwitSigHash x i f.input (p2pkhScript f.keyHash) f.coin.amount.toNat 1

end Fund

/-- The transaction to be signed. -/
noncomputable def draft (version locktime : UInt32) (fs : List Fund) (outs : List Out) : Transaction := ⟨version.toNat, fs.map Fund.input, outs, locktime.toNat⟩

theorem addCoins_eq : ∀ (fs : List Fund) {t : Tx} {x : Transaction}, t.Holds x → (∀ f ∈ fs, f.Owned) →
    ∃ t', addCoins t (fs.map Fund.coin) = .ok t' ∧ t'.Holds { x with ins := x.ins ++ fs.map Fund.input }
  | [], t, x, h, _ => ⟨t, rfl, by simpa using h⟩
  | f :: fs, t, x, h, hf => by
    have ho := hf f List.mem_cons_self
    obtain ⟨id, i, e1, e2, e3⟩ := C102_parent f.coin.source f.parent ho.source ho.size f.coin.n f.coin.seq
    obtain ⟨t', e4, e5⟩ := addCoins_eq fs (C21_addInput t x i f.input h e3).1 fun g hg => hf g (List.mem_cons_of_mem _ hg)
    refine ⟨t', ?_, by simpa using e5⟩
    rw [List.map_cons]
    unfold addCoins
    rw [e1, C.bind_ok, e2, C.bind_ok, e4]

theorem addOuts_eq : ∀ (outs : List (TxOut × Out)) {t : Tx} {x : Transaction}, t.Holds x → (∀ p ∈ outs, p.1.Holds p.2) →
    (addOuts t (outs.map Prod.fst)).Holds { x with outs := x.outs ++ outs.map Prod.snd }
  | [], t, x, h, _ => by simpa [addOuts] using h
  | p :: ps, t, x, h, hp => by
    have := addOuts_eq ps (C21_addOutput t x p.1 p.2 h (hp p List.mem_cons_self)).1 fun q hq => hp q (List.mem_cons_of_mem _ hq)
    simpa [addOuts] using this

theorem unsigned_eq (version locktime : UInt32) {fs : List Fund} (hf : ∀ f ∈ fs, f.Owned) {outs : List (TxOut × Out)} (ho : ∀ p ∈ outs, p.1.Holds p.2) :
    ∃ t, unsigned version locktime (fs.map Fund.coin) (outs.map Prod.fst) = .ok t ∧ t.Holds (draft version locktime fs (outs.map Prod.snd)) := by
  have h0 : Tx.Holds { version, locktime } ⟨version.toNat, [], [], locktime.toNat⟩ := ⟨rfl, .nil, .nil, rfl⟩
  obtain ⟨t, e1, e2⟩ := addCoins_eq fs h0 hf
  refine ⟨addOuts t (outs.map Prod.fst), ?_, ?_⟩
  · unfold unsigned
    rw [e1, C.bind_ok]
    rfl
  · have := addOuts_eq outs e2 ho
    simpa [draft] using this

/-- One signature. -/
theorem signCoin_eq {f : Fund} (hf : f.Owned) {x y : Transaction} (hs : SameButScripts x y) {t : Tx} (ht : t.Holds y) (hw : WireTx y) (hi : y.ins.length < 253)
    (ho : y.outs.length < 253) {i : Nat} (hin : y.ins[i]? = some f.input) {rnd : Nat → BN × BN} (hr : Draws rnd)
    (hd : ecdsaDeterministic (beBytes 32 f.d) (f.digest x i) 10000 ≠ none) :
    ∃ t' g s w, signCoin t (UInt8.ofNat i) f.coin rnd = .ok (t', g) ∧ t'.Holds (y.setIn i { f.input with script := s, witness := w }) ∧
      WireTx (y.setIn i { f.input with script := s, witness := w }) ∧
      InputOk (y.setIn i { f.input with script := s, witness := w }) i f.coin.amount.toNat f.script := by
  have hil : i < y.ins.length := (List.getElem?_eq_some_iff.mp hin).1
  have hidx : (UInt8.ofNat i).toNat = i := by simp; omega
  have hS : t.SignSetting y (UInt8.ofNat i) f.input f.coin.key f.d rnd := ⟨ht, hw, hi, ho, by rw [hidx]; exact hin, hf.key, hr⟩
  have hseg : segwitSigHash x i f.input (p2pkhScript f.keyHash) f.coin.amount.toNat 1 = segwitSigHash y i f.input (p2pkhScript f.keyHash) f.coin.amount.toNat 1 :=
    segwitSigHash_same hs _ rfl rfl rfl _ _ _
  unfold signCoin
  cases hk : f.coin.kind with
  | legacy =>
    have hdig : f.digest x i = legacySigHash y i (p2pkhScript f.keyHash) 1 := by
      unfold Fund.digest
      rw [hk]
      exact legacySigHash_same hs _ _ _
    rw [hdig] at hd
    obtain ⟨t', g, s, a1, a2, a3, a4⟩ := C71_p2pkh hS rfl f.coin.amount.toNat (by rw [hidx]; exact hd)
    rw [hidx] at a2 a3 a4
    refine ⟨t', g, s, [], a1, a2, a3, ?_⟩
    unfold Fund.script
    rw [hk]
    exact a4
  | nested =>
    have hdig : f.digest x i = segwitSigHash y i f.input (p2pkhScript f.keyHash) f.coin.amount.toNat 1 := by
      unfold Fund.digest
      rw [hk]
      exact hseg
    rw [hdig] at hd
    obtain ⟨t', g, s, w, a1, a2, a3, a4⟩ := C71_segwit_key hS f.coin.amount .p2sh_p2wpkh (by rw [hidx]; exact hd)
    rw [hidx] at a2 a3 a4
    refine ⟨t', g, s, w, a1, a2, a3, ?_⟩
    unfold Fund.script
    rw [hk]
    rw [if_pos (.inl rfl)] at a4
    exact a4
  | segwit =>
    have hdig : f.digest x i = segwitSigHash y i f.input (p2pkhScript f.keyHash) f.coin.amount.toNat 1 := by
      unfold Fund.digest
      rw [hk]
      exact hseg
    rw [hdig] at hd
    obtain ⟨t', g, s, w, a1, a2, a3, a4⟩ := C71_segwit_key hS f.coin.amount .p2wpkh (by rw [hidx]; exact hd)
    rw [hidx] at a2 a3 a4
    refine ⟨t', g, s, w, a1, a2, a3, ?_⟩
    unfold Fund.script
    rw [hk]
    rw [if_neg (by decide)] at a4
    exact a4

/-- What has been achieved when the inputs below `n` are signed. -/
structure Progress (x y : Transaction) (fs : List Fund) (n : Nat) : Prop where
  same : SameButScripts x y
  wire : WireTx y
  others : ∀ i : Nat, n ≤ i → y.ins[i]? = x.ins[i]?
  signed : ∀ (i : Nat) (f : Fund), i < n → fs[i]? = some f → InputOk y i f.coin.amount.toNat f.script

theorem signFrom_eq {x : Transaction} {fs : List Fund} (hx : x.ins = fs.map Fund.input) (hf : ∀ f ∈ fs, f.Owned) (hi : fs.length < 253) (ho : x.outs.length < 253)
    {rnd : Nat → Nat → BN × BN} (hr : ∀ i, Draws (rnd i))
    (hd : ∀ (i : Nat) (f : Fund), fs[i]? = some f → ecdsaDeterministic (beBytes 32 f.d) (f.digest x i) 10000 ≠ none) :
    ∀ (k n : Nat) (t : Tx) (y : Transaction), n + k = fs.length → t.Holds y → Progress x y fs n →
      ∃ t' y', signFrom rnd t n ((fs.drop n).map Fund.coin) = .ok t' ∧ t'.Holds y' ∧ Progress x y' fs fs.length
  | 0, n, t, y, hn, ht, hp => by
    obtain rfl : n = fs.length := by omega
    exact ⟨t, y, by rw [List.drop_length]; rfl, ht, hp⟩
  | k + 1, n, t, y, hn, ht, hp => by
    have hlt : n < fs.length := by omega
    have hfn : fs[n]? = some fs[n] := List.getElem?_eq_getElem hlt
    have hmem : fs[n] ∈ fs := List.getElem_mem hlt
    have hyi : y.ins[n]? = some fs[n].input := by
      rw [hp.others n (Nat.le_refl n), hx, List.getElem?_map, hfn]
      rfl
    have hlen : y.ins.length = fs.length := by rw [← hp.same.ins.length_eq, hx, List.length_map]
    obtain ⟨t1, g, s, w, e1, e2, e3, e4⟩ := signCoin_eq (hf _ hmem) hp.same ht hp.wire (by omega) (by rw [← hp.same.outs]; exact ho) hyi (hr n) (hd n _ hfn)
    have hsame := sameButScripts_setIn y hyi s w
    have hp' : Progress x (y.setIn n { fs[n].input with script := s, witness := w }) fs (n + 1) := by
      refine ⟨hp.same.trans hsame, e3, fun j hj => ?_, fun j f hj hjf => ?_⟩
      · have hij : n ≠ j := by omega
        rw [← hp.others j (by omega)]
        simp [Transaction.setIn, hij]
      · by_cases hij : j = n
        · subst hij
          rw [hfn] at hjf
          cases hjf
          exact e4
        · refine (C71_others hsame ?_ _ _).mp (hp.signed j f (by omega) hjf)
          simp [Transaction.setIn, Ne.symm hij]
    obtain ⟨t', y', f1, f2, f3⟩ := signFrom_eq hx hf hi ho hr hd k (n + 1) t1 _ (by omega) e2 hp'
    refine ⟨t', y', ?_, f2, f3⟩
    rw [List.drop_eq_getElem_cons hlt, List.map_cons]
    unfold signFrom
    rw [e1, C.bind_ok]
    exact f1

theorem draft_wire (version locktime : UInt32) {fs : List Fund} {outs : List Out} (ho : ∀ o ∈ outs, ValidOut o) : WireTx (draft version locktime fs outs) := by
  refine ⟨version.toNat_lt, locktime.toNat_lt, ?_, ho, ?_⟩
  · intro i hi
    obtain ⟨f, -, rfl⟩ := List.mem_map.mp hi
    exact ⟨length_hash256_spec _, f.coin.n.toNat_lt, by simp [Fund.input], f.coin.seq.toNat_lt⟩
  · intro i hi
    obtain ⟨f, -, rfl⟩ := List.mem_map.mp hi
    exact ⟨by simp [Fund.input], by simp [Fund.input]⟩

/-- The transaction `y` is the payment asked for: the outputs and numbers as given, and input `i` spends the output of `fs[i]`. -/
structure Pays (version locktime : UInt32) (fs : List Fund) (outs : List Out) (y : Transaction) : Prop where
  version : y.version = version.toNat
  locktime : y.locktime = locktime.toNat
  outs : y.outs = outs
  count : y.ins.length = fs.length
  spends : ∀ (i : Nat) (f : Fund), fs[i]? = some f → SpendsOutput y i f.parent f.coin.n.toNat
  sequence : ∀ (i : Nat) (f : Fund) (inp : In), fs[i]? = some f → y.ins[i]? = some inp → inp.sequence = f.coin.seq.toNat

theorem pay_eq (version locktime : UInt32) {fs : List Fund} (hf : ∀ f ∈ fs, f.Owned) (hi : fs.length < 253) {outs : List (TxOut × Out)}
    (ho : outs.length < 253) (hov : ∀ p ∈ outs, p.1.Holds p.2 ∧ ValidOut p.2) {rnd : Nat → Nat → BN × BN} (hr : ∀ i, Draws (rnd i))
    (hd : ∀ (i : Nat) (f : Fund), fs[i]? = some f →
      ecdsaDeterministic (beBytes 32 f.d) (f.digest (draft version locktime fs (outs.map Prod.snd)) i) 10000 ≠ none) :
    ∃ t0 t y, unsigned version locktime (fs.map Fund.coin) (outs.map Prod.fst) = .ok t0 ∧ t0.Holds (draft version locktime fs (outs.map Prod.snd)) ∧
      pay version locktime (fs.map Fund.coin) (outs.map Prod.fst) rnd = .ok t ∧ t.Holds y ∧ Progress (draft version locktime fs (outs.map Prod.snd)) y fs fs.length := by
  obtain ⟨t0, u1, u2⟩ := unsigned_eq version locktime hf fun p hp => (hov p hp).1
  have hvo : ∀ o ∈ outs.map Prod.snd, ValidOut o := by
    intro o hm
    obtain ⟨p, hp, rfl⟩ := List.mem_map.mp hm
    exact (hov p hp).2
  have hw := draft_wire version locktime (fs := fs) hvo
  have hno : (draft version locktime fs (outs.map Prod.snd)).outs.length < 253 := by simpa [draft] using ho
  have hp0 : Progress (draft version locktime fs (outs.map Prod.snd)) (draft version locktime fs (outs.map Prod.snd)) fs 0 := by
    refine ⟨⟨rfl, rfl, rfl, List.forall₂_same.mpr fun _ _ => ⟨rfl, rfl, rfl⟩⟩, hw, fun _ _ => rfl, fun i f h => by omega⟩
  obtain ⟨t, y, e1, e2, e3⟩ := signFrom_eq rfl hf hi hno hr hd fs.length 0 t0 _ (by omega) u2 hp0
  rw [List.drop_zero] at e1
  refine ⟨t0, t, y, u1, u2, ?_, e2, e3⟩
  unfold pay
  rw [u1, C.bind_ok]
  exact e1

/-- C109 for 1 to 252 inputs and at most 252 outputs: the program gives a transaction in which every input spends its output, and whoever reads its text gets this
transaction, with the same ids.  (Missing: larger numbers, for which it is false by `C14_many_inputs_lost`.  That no nonce is found in 10000 attempts is excluded.) -/
theorem C109_payment_partial (version locktime : UInt32) {fs : List Fund} (hf : ∀ f ∈ fs, f.Owned) (h0 : fs ≠ []) (hi : fs.length < 253) {outs : List (TxOut × Out)}
    (ho : outs.length < 253) (hov : ∀ p ∈ outs, p.1.Holds p.2 ∧ ValidOut p.2) {rnd : Nat → Nat → BN × BN} (hr : ∀ i, Draws (rnd i))
    (hd : ∀ (i : Nat) (f : Fund), fs[i]? = some f →
      ecdsaDeterministic (beBytes 32 f.d) (f.digest (draft version locktime fs (outs.map Prod.snd)) i) 10000 ≠ none) :
    ∃ t y text, pay version locktime (fs.map Fund.coin) (outs.map Prod.fst) rnd = .ok t ∧ t.Holds y ∧ Pays version locktime fs (outs.map Prod.snd) y ∧
      stringOf t.toStream t.length = .ok text ∧
      ∀ dst : Tx, dst.status = .done →
        (dst.fromStream (hexStream text).abs).1.status = .done ∧ (dst.fromStream (hexStream text).abs).1.Holds y ∧
        (dst.fromStream (hexStream text).abs).1.txid = t.txid ∧ (dst.fromStream (hexStream text).abs).1.wtxid = t.wtxid := by
  obtain ⟨-, t, y, -, -, e1, e2, e3⟩ := pay_eq version locktime hf hi ho hov hr hd
  have hno : (draft version locktime fs (outs.map Prod.snd)).outs.length < 253 := by simpa [draft] using ho
  have hlen : y.ins.length = fs.length := by rw [← e3.same.ins.length_eq, draft, List.length_map]
  have hyo : y.outs.length < 253 := by rw [← e3.same.outs]; exact hno
  have hne : y.ins ≠ [] := by
    intro h
    rw [h] at hlen
    exact h0 (List.length_eq_zero_iff.mp hlen.symm)
  have hbody : ∀ (i : Nat) (f : Fund), fs[i]? = some f → ∃ inp, y.ins[i]? = some inp ∧ inp.prevHash = Spec.hash256 (legacyBytes f.parent) ∧ inp.prevIndex = f.coin.n.toNat ∧
      inp.sequence = f.coin.seq.toNat := by
    intro i f hfi
    obtain ⟨hl, -⟩ := List.getElem?_eq_some_iff.mp hfi
    have hly : i < y.ins.length := by omega
    have hd1 : (draft version locktime fs (outs.map Prod.snd)).ins[i]? = some f.input := by
      show (fs.map Fund.input)[i]? = _
      rw [List.getElem?_map, hfi]
      rfl
    obtain ⟨hl', hd2⟩ := List.getElem?_eq_some_iff.mp hd1
    obtain ⟨a1, a2, a3⟩ := (List.forall₂_iff_get.mp e3.same.ins).2 i hl' hly
    simp only [List.get_eq_getElem] at a1 a2 a3
    rw [hd2] at a1 a2 a3
    exact ⟨y.ins[i], List.getElem?_eq_getElem hly, a1.symm, a2.symm, a3.symm⟩
  have hsm := e3.wire.small (by omega) hyo
  obtain ⟨text, s1, -, s3⟩ := C79_tx_partial t y e2 hsm
  have hseg : (segwitBytes y).length < 2 ^ 60 := by
    have := wire_segwit y e3.wire (by omega) hyo
    omega
  refine ⟨t, y, text, e1, e2, ?_, s1, fun dst hdst => ?_⟩
  · refine ⟨e3.same.version.symm, e3.same.locktime.symm, e3.same.outs.symm, hlen, fun i f hfi => ?_, fun i f inp hfi hin => ?_⟩
    · obtain ⟨inp, b1, b2, b3, -⟩ := hbody i f hfi
      have hl := (List.getElem?_eq_some_iff.mp hfi).1
      exact ⟨inp, _, b1, (hf f (List.mem_of_getElem? hfi)).out, b2, b3, e3.signed i f hl hfi⟩
    · obtain ⟨inp', b1, -, -, b4⟩ := hbody i f hfi
      rw [hin] at b1
      cases b1
      exact b4
  · obtain ⟨-, -, c1, c2, -⟩ := C14_tx_partial t dst y e2 e3.wire hne (by omega) hyo hdst []
    rw [List.append_nil] at c1 c2
    rw [s3]
    exact ⟨c1, c2, by rw [C18_txid _ y c2 hseg, C18_txid t y e2 hseg], by rw [C18_wtxid _ y c2 hseg, C18_wtxid t y e2 hseg]⟩

/-! ### The id of the transaction -/

theorem script_of_segwit {x : Transaction} {i amount : Nat} {h : Bytes} (hl : h.length = 20) (hok : InputOk x i amount (p2wpkhScript h)) {inp : In} (hi : x.ins[i]? = some inp) :
    inp.script = [] := by
  have hne : ∀ r, p2wpkhScript h ≠ p2shScript r := by
    intro r e
    have := congrArg List.head? e
    simp [p2wpkhScript, p2shScript] at this
  generalize hs : p2wpkhScript h = spk at hok
  cases hok with
  | bare _ inp' ds hi' hp hw h1 h2 hs' =>
    refine absurd ⟨0, h, ?_, by omega, by omega, .inl rfl⟩ h1
    rw [← hs, hl]
    rfl
  | native _ inp' hi' h0 hw =>
    rw [hi] at hi'
    cases hi'
    exact h0
  | p2sh r inp' ds hi' hp hw h1 hs' => exact absurd hs (hne _)
  | nested r inp' hi' h0 hs' => exact absurd hs (hne _)

theorem pushes_nil {ds : List Bytes} (h : Pushes [] ds) : ds = [] := by
  cases h with
  | nil => rfl
  | cons e => cases e

theorem script_of_legacy {x : Transaction} {i amount : Nat} {h : Bytes} (hok : InputOk x i amount (p2pkhScript h)) {inp : In} (hi : x.ins[i]? = some inp) :
    inp.script ≠ [] := by
  have hne : ∀ r, p2pkhScript h ≠ p2shScript r := by
    intro r e
    have := congrArg List.head? e
    simp [p2pkhScript, p2shScript] at this
  generalize hs : p2pkhScript h = spk at hok
  cases hok with
  | bare _ inp' ds hi' hp hw h1 h2 hs' =>
    intro h0
    rw [hi] at hi'
    cases hi'
    rw [h0] at hp
    obtain rfl := pushes_nil hp
    obtain ⟨t, st, hr, -⟩ := hs'
    rw [← hs] at hr
    simp [run, p2pkhScript, exec, getOp, execOp] at hr
  | native _ inp' hi' h0 hw =>
    cases hw with
    | key h' sig key hl hw' hs' =>
      have := congrArg List.head? hs
      simp [p2wpkhScript, p2pkhScript] at this
    | script items sc hw' hs' =>
      have := congrArg List.head? hs
      simp [p2wshScript, p2pkhScript] at this
  | p2sh r inp' ds hi' hp hw h1 hs' => exact absurd hs (hne _)
  | nested r inp' hi' h0 hs' => exact absurd hs (hne _)

theorem script_of_nested {x : Transaction} {i amount : Nat} {h : Bytes} (hl : h.length = 20) (hok : InputOk x i amount (p2shScript h)) {inp : In}
    (hi : x.ins[i]? = some inp) : inp.script ≠ [] := by
  generalize hs : p2shScript h = spk at hok
  cases hok with
  | bare _ inp' ds hi' hp hw h1 h2 hs' => exact absurd ⟨h, hl, hs.symm⟩ h2
  | native _ inp' hi' h0 hw =>
    cases hw with
    | key h' sig key hl hw' hs' =>
      have := congrArg List.head? hs
      simp [p2wpkhScript, p2shScript] at this
    | script items sc hw' hs' =>
      have := congrArg List.head? hs
      simp [p2wshScript, p2shScript] at this
  | p2sh r inp' ds hi' hp hw h1 hs' =>
    intro h0
    rw [hi] at hi'
    cases hi'
    rw [h0] at hp
    have := pushes_nil hp
    simp at this
  | nested r inp' hi' h0 hs' =>
    rw [hi] at hi'
    cases hi'
    rw [h0]
    simp

theorem strip_eq {x y : Transaction} (h : SameButScripts x y) (hs : ∀ (i : Nat) (a b : In), x.ins[i]? = some a → y.ins[i]? = some b → a.script = b.script) :
    strip x = strip y := by
  have hl := h.ins.length_eq
  have : x.ins.map stripIn = y.ins.map stripIn := by
    refine List.ext_getElem (by simpa using hl) fun i h1 h2 => ?_
    rw [List.length_map] at h1 h2
    obtain ⟨a1, a2, a3⟩ := (List.forall₂_iff_get.mp h.ins).2 i h1 h2
    have a4 := hs i _ _ (List.getElem?_eq_getElem h1) (List.getElem?_eq_getElem h2)
    simp only [List.get_eq_getElem] at a1 a2 a3
    simp [stripIn, a1, a2, a3, a4]
  unfold strip
  rw [h.version, h.outs, h.locktime, this]

/-- C109: if all outputs to be spent are native segwit outputs, the id of the transaction is known before it is signed, so that its outputs can be spent by further
transactions made meanwhile: what spends an output of the draft spends that output of the signed transaction. -/
theorem C109_id (version locktime : UInt32) {fs : List Fund} (hf : ∀ f ∈ fs, f.Owned) (hi : fs.length < 253) {outs : List (TxOut × Out)}
    (ho : outs.length < 253) (hov : ∀ p ∈ outs, p.1.Holds p.2 ∧ ValidOut p.2) {rnd : Nat → Nat → BN × BN} (hr : ∀ i, Draws (rnd i))
    (hd : ∀ (i : Nat) (f : Fund), fs[i]? = some f →
      ecdsaDeterministic (beBytes 32 f.d) (f.digest (draft version locktime fs (outs.map Prod.snd)) i) 10000 ≠ none) (hk : ∀ f ∈ fs, f.coin.kind = .segwit) :
    ∃ t0 t y, unsigned version locktime (fs.map Fund.coin) (outs.map Prod.fst) = .ok t0 ∧ t0.Holds (draft version locktime fs (outs.map Prod.snd)) ∧
      pay version locktime (fs.map Fund.coin) (outs.map Prod.fst) rnd = .ok t ∧ t.Holds y ∧ t.txid = t0.txid ∧
      ∀ (z : Transaction) (j n : Nat), SpendsOutput z j (draft version locktime fs (outs.map Prod.snd)) n ↔ SpendsOutput z j y n := by
  obtain ⟨t0, t, y, u1, u2, e1, e2, e3⟩ := pay_eq version locktime hf hi ho hov hr hd
  have hvo : ∀ o ∈ outs.map Prod.snd, ValidOut o := by
    intro o hm
    obtain ⟨p, hp, rfl⟩ := List.mem_map.mp hm
    exact (hov p hp).2
  have hw := draft_wire version locktime (fs := fs) hvo
  have hno : (draft version locktime fs (outs.map Prod.snd)).outs.length < 253 := by simpa [draft] using ho
  have hni : (draft version locktime fs (outs.map Prod.snd)).ins.length < 253 := by simpa [draft] using hi
  have hlen : y.ins.length < 253 := by rw [← e3.same.ins.length_eq]; exact hni
  have hyo : y.outs.length < 253 := by rw [← e3.same.outs]; exact hno
  have hst : strip (draft version locktime fs (outs.map Prod.snd)) = strip y := by
    refine strip_eq e3.same fun i a b ha hb => ?_
    have ha' : (fs.map Fund.input)[i]? = some a := ha
    rw [List.getElem?_map] at ha'
    cases hfi : fs[i]? with
    | none => rw [hfi] at ha'; cases ha'
    | some f =>
      rw [hfi] at ha'
      cases ha'
      have hm := List.mem_of_getElem? hfi
      have hok := e3.signed i f (List.getElem?_eq_some_iff.mp hfi).1 hfi
      unfold Fund.script at hok
      rw [hk f hm] at hok
      exact (script_of_segwit (length_hash160 _) hok hb).symm
  have e : ∀ y : Transaction, legacyBytes (strip y) = legacyBytes y := by
    intro y
    simp only [legacyBytes, strip, flatMap_inBytes_strip, List.length_map]
  have hlb : legacyBytes (draft version locktime fs (outs.map Prod.snd)) = legacyBytes y := by rw [← e, ← e y, hst]
  refine ⟨t0, t, y, u1, u2, e1, e2, ?_, fun z j n => ?_⟩
  · have h1 := wire_segwit _ hw hni hno
    have h2 := wire_segwit y e3.wire hlen hyo
    exact C18_txid_ignores_witness t t0 y _ e2 u2 (by omega) (by omega) hst.symm
  · unfold SpendsOutput
    rw [hlb, e3.same.outs]

theorem good_of_wire {x : Transaction} (h : WireTx x) (hi : x.ins.length < 253) (ho : x.outs.length < 253) : GoodTx x := by
  refine ⟨h.version, h.locktime, by omega, by omega, fun i hm => ?_, fun o hm => ?_⟩
  · have a := h.ins i hm
    have b := h.items i hm
    have c := a.script
    exact ⟨a.hash, a.index, by omega, a.sequence, by have := b.1; omega, fun e he => by have := b.2 e he; omega⟩
  · have a := h.outs o hm
    have c := a.script
    exact ⟨a.amount, by omega⟩

/-- C109: if one of the outputs is of another kind, the transaction has another id once it is signed, unless two different transactions have the same double SHA-256 hash. -/
theorem C109_id_changes (version locktime : UInt32) {fs : List Fund} (hf : ∀ f ∈ fs, f.Owned) (hi : fs.length < 253) {outs : List (TxOut × Out)}
    (ho : outs.length < 253) (hov : ∀ p ∈ outs, p.1.Holds p.2 ∧ ValidOut p.2) {rnd : Nat → Nat → BN × BN} (hr : ∀ i, Draws (rnd i))
    (hd : ∀ (i : Nat) (f : Fund), fs[i]? = some f →
      ecdsaDeterministic (beBytes 32 f.d) (f.digest (draft version locktime fs (outs.map Prod.snd)) i) 10000 ≠ none) (hk : ∃ f ∈ fs, f.coin.kind ≠ .segwit) :
    ∃ t0 t y, unsigned version locktime (fs.map Fund.coin) (outs.map Prod.fst) = .ok t0 ∧ t0.Holds (draft version locktime fs (outs.map Prod.snd)) ∧
      pay version locktime (fs.map Fund.coin) (outs.map Prod.fst) rnd = .ok t ∧ t.Holds y ∧
      legacyBytes (draft version locktime fs (outs.map Prod.snd)) ≠ legacyBytes y ∧
      (t.txid = t0.txid → Spec.hash256 (legacyBytes (draft version locktime fs (outs.map Prod.snd))) = Spec.hash256 (legacyBytes y)) := by
  obtain ⟨t0, t, y, u1, u2, e1, e2, e3⟩ := pay_eq version locktime hf hi ho hov hr hd
  have hvo : ∀ o ∈ outs.map Prod.snd, ValidOut o := by
    intro o hm
    obtain ⟨p, hp, rfl⟩ := List.mem_map.mp hm
    exact (hov p hp).2
  have hw := draft_wire version locktime (fs := fs) hvo
  have hno : (draft version locktime fs (outs.map Prod.snd)).outs.length < 253 := by simpa [draft] using ho
  have hni : (draft version locktime fs (outs.map Prod.snd)).ins.length < 253 := by simpa [draft] using hi
  have hlen : y.ins.length < 253 := by rw [← e3.same.ins.length_eq]; exact hni
  have hyo : y.outs.length < 253 := by rw [← e3.same.outs]; exact hno
  refine ⟨t0, t, y, u1, u2, e1, e2, fun h => ?_, fun h => ?_⟩
  · have hst := C18_txid_preimage_injective _ _ (good_of_wire hw hni hno) (good_of_wire e3.wire hlen hyo) h
    obtain ⟨f, hm, hkf⟩ := hk
    obtain ⟨i, hil, hfi'⟩ := List.getElem_of_mem hm
    have hfi : fs[i]? = some f := by rw [List.getElem?_eq_getElem hil, hfi']
    have hiy : i < y.ins.length := by rw [← e3.same.ins.length_eq]; simpa [draft] using hil
    have hok := e3.signed i f hil hfi
    have hne : y.ins[i].script ≠ [] := by
      unfold Fund.script at hok
      cases hkk : f.coin.kind with
      | segwit => exact absurd hkk hkf
      | legacy =>
        rw [hkk] at hok
        exact script_of_legacy hok (List.getElem?_eq_getElem hiy)
      | nested =>
        rw [hkk] at hok
        exact script_of_nested (length_hash160 _) hok (List.getElem?_eq_getElem hiy)
    have h1 : ((fs.map Fund.input).map stripIn)[i]? = (y.ins.map stripIn)[i]? := congrArg (fun x : Transaction => x.ins[i]?) hst
    rw [List.getElem?_map, List.getElem?_map, List.getElem?_map, hfi, List.getElem?_eq_getElem hiy] at h1
    exact hne (congrArg In.script (Option.some.inj h1)).symm
  · have h1 := wire_segwit _ hw hni hno
    have h2 := wire_segwit y e3.wire hlen hyo
    rw [C18_txid t y e2 (by omega), C18_txid t0 _ u2 (by omega)] at h
    exact (List.reverse_inj.mp (C.ok.inj h)).symm

/-! Cases that meet the hypotheses: for the key with the secret 1, an output of each kind, in a transaction without inputs. -/

noncomputable def exFund (k : Kind) : Fund :=
  let script := match k with
    | .legacy => p2pkhScript (Spec.hash160 (secOf keyOne.pubKey.compressed (1 • G)))
    | .nested => p2shScript (Spec.hash160 (p2wpkhScript (Spec.hash160 (secOf keyOne.pubKey.compressed (1 • G)))))
    | .segwit => p2wpkhScript (Spec.hash160 (secOf keyOne.pubKey.compressed (1 • G)))
  { coin := { source := { txOuts := [{ amount := 5000, scriptPubkey := holder script }] }, n := 0, amount := 5000, key := keyOne, kind := k, seq := 0xfffffffd }
    parent := ⟨1, [], [⟨5000, script⟩], 0⟩
    d := 1 }

theorem exFund_owned (k : Kind) : (exFund k).Owned := by
  have hlen : ∀ script : Bytes, script.length ≤ 25 → (segwitBytes ⟨1, [], [⟨5000, script⟩], 0⟩).length < 2 ^ 60 := by
    intro script hs
    have : (compactSize script.length).length ≤ 9 := by unfold compactSize; split_ifs <;> simp [leBytes]
    simp only [segwitBytes, outBytes, varBytes, List.flatMap_cons, List.flatMap_nil, List.length_append, Spec.length_leBytes, List.length_nil, List.length_cons,
      show (compactSize 0).length = 1 from rfl, show (compactSize 1).length = 1 from rfl]
    omega
  have hh : ∀ b, (Spec.hash160 b).length = 20 := fun b => length_hash160 b
  cases k with
  | legacy => exact ⟨⟨rfl, .nil, .cons ⟨rfl, holder_holds _⟩ .nil, rfl⟩, hlen _ (by simp [p2pkhScript, hh]), keyOne_holds, rfl⟩
  | nested => exact ⟨⟨rfl, .nil, .cons ⟨rfl, holder_holds _⟩ .nil, rfl⟩, hlen _ (by simp [p2shScript, hh]), keyOne_holds, rfl⟩
  | segwit => exact ⟨⟨rfl, .nil, .cons ⟨rfl, holder_holds _⟩ .nil, rfl⟩, hlen _ (by simp [p2wpkhScript, hh]), keyOne_holds, rfl⟩

/-- C109: a payment from three outputs, one of each kind, to one output. -/
example : ∃ (fs : List Fund) (outs : List (TxOut × Out)) (rnd : Nat → Nat → BN × BN), fs.length = 3 ∧ outs.length = 1 ∧ (∀ f ∈ fs, f.Owned) ∧
    (∀ p ∈ outs, p.1.Holds p.2 ∧ ValidOut p.2) ∧ (∀ i, Draws (rnd i)) := by
  refine ⟨[exFund .legacy, exFund .nested, exFund .segwit], [({ amount := 14000, scriptPubkey := holder [0x51] }, ⟨14000, [0x51]⟩)], fun _ _ => (BN.one, BN.one), rfl, rfl, ?_, ?_,
    fun _ => draws_one⟩
  · simp [exFund_owned]
  · simp only [List.mem_cons, List.not_mem_nil, or_false, forall_eq]
    exact ⟨⟨rfl, holder_holds _⟩, ⟨by decide, by decide⟩⟩

end Payment
end UB
