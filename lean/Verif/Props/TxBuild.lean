import Verif.Model.TxBuild
import Verif.Spec.Interp
import Verif.Props.Address
import Verif.Props.Strings

/-
C102: making inputs from transaction ids and outputs from addresses.
-/

namespace UB
open Spec

attribute [local irreducible] Spec.hash256 doubleSha hash160 Spec.hash160 checkedText

/-! ### Inputs -/

theorem fresh_assign {sc : Script} {d : Bytes} (h : sc.Holds d) : (({} : Script).assign sc.copy).Holds d := by
  obtain ⟨h1, h2⟩ := h
  unfold Script.assign Script.copy Script.clear Script.Holds
  rw [h1, h2]
  cases d with
  | nil => exact ⟨rfl, rfl⟩
  | cons a d => simp

theorem fresh_assign_own {sc : Script} {d : Bytes} (h : sc.Holds d) : (({} : Script).assign sc).Holds d := by
  obtain ⟨h1, h2⟩ := h
  unfold Script.assign Script.clear Script.Holds
  rw [h1, h2]
  cases d with
  | nil => exact ⟨rfl, rfl⟩
  | cons a d => simp

/-- C102: the input made from the 32 bytes of a transaction id, an output number, possibly a script, and a sequence number. -/
theorem C102_bytes (id : Bytes) (hl : id.length = 32) (idx seq : UInt32) (sc : Script) (script : Bytes) (hs : sc.Holds script) :
    (TxIn.mk' id idx seq).Holds ⟨id.reverse, idx.toNat, [], seq.toNat, []⟩ ∧
    (TxIn.ofIdScript id idx sc seq).Holds ⟨id.reverse, idx.toNat, script, seq.toNat, []⟩ :=
  ⟨⟨⟨rfl, by simp [TxIn.mk', hl], rfl, ⟨rfl, rfl⟩, rfl⟩, ⟨rfl, rfl⟩⟩, ⟨⟨rfl, by simp [TxIn.ofIdScript, hl], rfl, fresh_assign hs, rfl⟩, ⟨rfl, rfl⟩⟩⟩

/-- The transaction id read from a text: the pairs of hex digits at the start of the first 64 characters, behind characters which are no hex digits, filled
with zero bytes. -/
def Spec.idFrom (text : Bytes) : Bytes := hexPairs (skipToHex (text.take 64)) ++ zeros (32 - (hexPairs (skipToHex (text.take 64))).length)

theorem pairs_short (text : Bytes) : (hexPairs (skipToHex (text.take 64))).length ≤ 32 := by
  have h1 := length_hexPairs_le (skipToHex (text.take 64))
  have h2 : (skipToHex (text.take 64)).length ≤ (text.take 64).length := (List.dropWhile_suffix _).length_le
  rw [List.length_take] at h2
  omega

theorem length_idFrom (text : Bytes) : (idFrom text).length = 32 := by
  have := pairs_short text
  unfold idFrom
  rw [List.length_append, length_zeros]
  omega

/-- C102: what the constructors make of any text of 64 or more characters; nothing outside the buffers is touched. -/
theorem C102_text_exact (junk text : Bytes) (hl : 64 ≤ text.length) (idx seq : UInt32) (sc : Script) (script : Bytes) (hs : sc.Holds script) :
    (∃ i, TxIn.ofText text idx seq = .ok i ∧ i.status = .done ∧ i.Holds ⟨(idFrom text).reverse, idx.toNat, [], seq.toNat, []⟩) ∧
    (∃ i, TxIn.ofTextScript junk text idx sc seq = .ok i ∧ i.status = .done ∧ i.Holds ⟨(idFrom text).reverse, idx.toNat, script, seq.toNat, []⟩) := by
  have hf : fromHex (text.take 64) (zeros 32) = .ok ((hexPairs (skipToHex (text.take 64))).length, idFrom text) := by
    rw [C02_fromHex_exact, length_zeros, if_pos (pairs_short text)]
    rfl
  have hr : (idFrom text).reverse.length = 32 := by rw [List.length_reverse, length_idFrom]
  constructor
  · refine ⟨?_, ?_, ?_, ?_⟩
    rotate_left
    · unfold TxIn.ofText
      rw [if_neg (by omega), hf, C.bind_ok]
      rfl
    · rfl
    · exact ⟨⟨rfl, hr, rfl, ⟨rfl, rfl⟩, rfl⟩, ⟨rfl, rfl⟩⟩
  · refine ⟨?_, ?_, ?_, ?_⟩
    rotate_left
    · unfold TxIn.ofTextScript
      rw [if_neg (by omega), hf, C.bind_ok]
      rfl
    · rfl
    · exact ⟨⟨rfl, hr, rfl, fresh_assign hs, rfl⟩, ⟨rfl, rfl⟩⟩

theorem idFrom_hex {text id rest : Bytes} (hl : id.length = 32) (h : text.map lower = hexText id) : idFrom (text ++ rest) = id := by
  have htl : text.length = 64 := by
    have := congrArg List.length h
    rw [List.length_map, length_hexText] at this
    omega
  unfold idFrom
  rw [List.take_left' htl, skipToHex_text _ _ h, hexPairs_text _ _ h, hl]
  simp [zeros]

/-- C102: with the hex text of a transaction id, in any mix of letter cases, the input spends the output of that transaction. -/
theorem C102_text (junk text id : Bytes) (hl : id.length = 32) (h : text.map lower = hexText id) (idx seq : UInt32) (sc : Script) (script : Bytes)
    (hs : sc.Holds script) :
    (∃ i, TxIn.ofText text idx seq = .ok i ∧ i.Holds ⟨id.reverse, idx.toNat, [], seq.toNat, []⟩) ∧
    (∃ i, TxIn.ofTextScript junk text idx sc seq = .ok i ∧ i.Holds ⟨id.reverse, idx.toNat, script, seq.toNat, []⟩) := by
  have htl : text.length = 64 := by
    have := congrArg List.length h
    rw [List.length_map, length_hexText] at this
    omega
  have hid := idFrom_hex (rest := []) hl h
  rw [List.append_nil] at hid
  obtain ⟨⟨i, e1, -, e2⟩, ⟨j, e3, -, e4⟩⟩ := C102_text_exact junk text (by omega) idx seq sc script hs
  rw [hid] at e2 e4
  exact ⟨⟨i, e1, e2⟩, ⟨j, e3, e4⟩⟩

theorem length_hash256_spec (b : Bytes) : (Spec.hash256 b).length = 32 := by
  unfold Spec.hash256
  exact length_sha256 _

/-- C102: an input made from `txid()` of a transaction refers to that transaction. -/
theorem C102_parent (t : Tx) (x : Transaction) (h : t.Holds x) (hl : (segwitBytes x).length < 2 ^ 60) (idx seq : UInt32) :
    ∃ text i, t.txidString = .ok text ∧ TxIn.ofText text idx seq = .ok i ∧ i.Holds ⟨Spec.hash256 (legacyBytes x), idx.toNat, [], seq.toNat, []⟩ := by
  have h1 := (Tx.C83_txid t x h hl).1
  obtain ⟨⟨i, e1, e2⟩, -⟩ := C102_text [] _ _ (by rw [List.length_reverse, length_hash256_spec]) (lower_hexText (Spec.hash256 (legacyBytes x)).reverse) idx seq {} [] ⟨rfl, rfl⟩
  rw [List.reverse_reverse] at e2
  exact ⟨_, i, h1, e1, e2⟩

/-! ### Outputs -/

/-- C102: the output made from an amount and a script. -/
theorem C102_out_script (amount : UInt64) (sc : Script) (script : Bytes) (hs : sc.Holds script) : (TxOut.ofScript amount sc).Holds ⟨amount.toNat, script⟩ :=
  ⟨rfl, fresh_assign hs⟩

/-- C102: what `Script(address)` makes of a text is what the output pays to. -/
theorem C102_out_address {amount : UInt64} {text : Bytes} {sc : Script} {script : Bytes} (h : ({} : Script).fromAddress text = .ok sc) (hs : sc.Holds script) :
    ∃ o, TxOut.ofAddress amount text = .ok o ∧ o.status = .done ∧ o.Holds ⟨amount.toNat, script⟩ := by
  refine ⟨?_, ?_, ?_, ?_⟩
  rotate_left
  · unfold TxOut.ofAddress
    rw [h, C.bind_ok]
    rfl
  · rfl
  · exact ⟨rfl, fresh_assign_own hs⟩

/-- C102: the output made from the address of a script pays to that script: script hash addresses on all networks and key hash addresses on test networks. -/
theorem C102_out_legacy (amount : UInt64) (sc : Script) (ty : ScriptType) (v : UInt8) (h buffer : Bytes) (net : Network) (hnet : net ∈ networks)
    (hv : legacyVersion net ty = some v) (hv0 : v ≠ 0) (hh : h.length = 20) (hs : sc.Holds (legacyScript ty h)) (hb : 35 ≤ buffer.length) :
    ∃ text o, sc.address buffer net = .ok (text ++ zeros (buffer.length - text.length), text.length) ∧ TxOut.ofAddress amount text = .ok o ∧
      o.Holds ⟨amount.toNat, legacyScript ty h⟩ := by
  obtain ⟨text, e1, -, sc', e2, e3⟩ := C23_legacy_roundtrip sc {} ty v h buffer net hnet hv hv0 hh hs hb
  obtain ⟨o, f1, -, f2⟩ := C102_out_address (amount := amount) e2 e3
  exact ⟨text, o, e1, f1, f2⟩

/-- C102: the same for version 0 witness programs, but on the network Regtest. -/
theorem C102_out_witness (amount : UInt64) (sc : Script) (prog buffer : Bytes) (net : Network) (hnet : net ∈ networks)
    (hreg : net.bech32 ≠ regtest.bech32) (hp : prog.length = 20 ∨ prog.length = 32) (hs : sc.Holds (witnessScript 0 prog)) (hb : 64 ≤ buffer.length) :
    ∃ text o, sc.address buffer net = .ok (text ++ zeros (buffer.length - text.length), text.length) ∧ TxOut.ofAddress amount text = .ok o ∧
      o.Holds ⟨amount.toNat, witnessScript 0 prog⟩ := by
  obtain ⟨text, e1, -, sc', e2, e3⟩ := C23_witness_roundtrip sc {} prog buffer net hnet hreg hp hs hb
  obtain ⟨o, f1, -, f2⟩ := C102_out_address (amount := amount) e2 e3
  exact ⟨text, o, e1, f1, f2⟩

/-! ### Where code and claim disagree -/

/-- C102: with a text of less than 64 characters the input is that of `TxIn()` whatever number and sequence number are given, and counts as valid. -/
theorem C102_short_text {text : Bytes} (h : text.length < 64) (idx seq : UInt32) :
    ∃ i, TxIn.ofText text idx seq = .ok i ∧ i.status = .done ∧ i.Holds ⟨zeros 32, 0, [], 0, []⟩ := by
  refine ⟨{}, ?_, rfl, ⟨⟨rfl, rfl, rfl, ⟨rfl, rfl⟩, rfl⟩, ⟨rfl, rfl⟩⟩⟩
  unfold TxIn.ofText
  rw [if_pos h]

/-- C102: if a script is given, too, the transaction the input refers to is whatever has been in memory, and the script is dropped. -/
theorem C102_short_text_script {text : Bytes} (h : text.length < 64) (idx seq : UInt32) (sc : Script) (junk : Bytes) (hj : junk.length = 32) :
    ∃ i, TxIn.ofTextScript junk text idx sc seq = .ok i ∧ i.status = .done ∧ i.Holds ⟨junk, idx.toNat, [], seq.toNat, []⟩ := by
  refine ⟨{ outputIndex := idx, sequence := seq, hash := junk }, ?_, rfl, ⟨⟨rfl, hj, rfl, ⟨rfl, rfl⟩, rfl⟩, ⟨rfl, rfl⟩⟩⟩
  unfold TxIn.ofTextScript
  rw [if_pos h]

/-- C102: characters behind the first 64 are ignored. -/
theorem C102_tail_ignored (text rest id : Bytes) (hl : id.length = 32) (h : text.map lower = hexText id) (idx seq : UInt32) :
    ∃ i, TxIn.ofText (text ++ rest) idx seq = .ok i ∧ i.Holds ⟨id.reverse, idx.toNat, [], seq.toNat, []⟩ := by
  have htl : text.length = 64 := by
    have := congrArg List.length h
    rw [List.length_map, length_hexText] at this
    omega
  obtain ⟨⟨i, e1, -, e2⟩, -⟩ := C102_text_exact [] (text ++ rest) (by rw [List.length_append]; omega) idx seq {} [] ⟨rfl, rfl⟩
  rw [idFrom_hex hl h] at e2
  exact ⟨i, e1, e2⟩

/-- C102: with "0x" in front of the id the input refers to the transaction id zero. -/
theorem C102_prefix_lost (text : Bytes) (hl : 62 ≤ text.length) (idx seq : UInt32) :
    ∃ i, TxIn.ofText (48 :: 120 :: text) idx seq = .ok i ∧ i.status = .done ∧ i.Holds ⟨zeros 32, idx.toNat, [], seq.toNat, []⟩ := by
  obtain ⟨⟨i, e1, e0, e2⟩, -⟩ := C102_text_exact [] (48 :: 120 :: text) (by simp only [List.length_cons]; omega) idx seq {} [] ⟨rfl, rfl⟩
  have hv : hexValue? 48 = some 0 ∧ hexValue? 120 = none := by decide +kernel
  have hid : idFrom (48 :: 120 :: text) = zeros 32 := by
    have hp : hexPairs (skipToHex ((48 :: 120 :: text).take 64)) = [] := by
      show hexPairs (skipToHex (48 :: 120 :: text.take 62)) = []
      unfold skipToHex
      rw [List.dropWhile_cons_of_neg (by rw [hv.1]; simp)]
      unfold hexPairs
      rw [hv.1, hv.2]
    unfold idFrom
    rw [hp]
    rfl
  rw [hid] at e2
  exact ⟨i, e1, e0, by simpa [zeros] using e2⟩

/-- C102: a character that is no hex digit in front of the id - a blank, say - takes the place of one at its end: the last byte of the id becomes zero. -/
theorem C102_blank_shifts (c : UInt8) (hc : hexValue? c = none) (text id : Bytes) (b : UInt8) (hl : id.length = 31) (h : text.map lower = hexText (id ++ [b])) (idx seq : UInt32) :
    ∃ i, TxIn.ofText (c :: text) idx seq = .ok i ∧ i.status = .done ∧ i.Holds ⟨0 :: id.reverse, idx.toNat, [], seq.toNat, []⟩ := by
  have htl : text.length = 64 := by
    have := congrArg List.length h
    rw [List.length_map, length_hexText, List.length_append, hl] at this
    exact this
  obtain ⟨⟨i, e1, e0, e2⟩, -⟩ := C102_text_exact [] (c :: text) (by simp only [List.length_cons]; omega) idx seq {} [] ⟨rfl, rfl⟩
  have h62 : (text.take 62).map lower = hexText id := by
    rw [List.map_take, h]
    unfold hexText
    rw [List.flatMap_append]
    refine List.take_left' ?_
    have := length_hexText id
    unfold hexText at this
    omega
  have hp : hexPairs (skipToHex ((c :: text).take 64)) = id := by
    show hexPairs (skipToHex (c :: text.take 63)) = id
    unfold skipToHex
    rw [List.dropWhile_cons_of_pos (by rw [hc]; rfl)]
    have h63 : ∃ d, text.take 63 = text.take 62 ++ [d] := ⟨text[62]'(by omega), by rw [← List.take_append_getElem (by omega)]⟩
    obtain ⟨d, hd⟩ := h63
    have hne : text.take 62 ≠ [] := List.ne_nil_of_length_pos (by rw [List.length_take]; omega)
    have hsk := skipToHex_text _ _ h62
    have hpr := hexPairs_text _ _ h62
    unfold skipToHex at hsk
    have : ((text.take 62 ++ [d]).dropWhile fun c => (hexValue? c).isNone) = text.take 62 ++ [d] := by
      obtain ⟨a, l, e⟩ := List.exists_cons_of_ne_nil hne
      rw [e] at hsk ⊢
      by_cases ha : (hexValue? a).isNone = true
      · exfalso
        rw [List.dropWhile_cons_of_pos (p := fun c => (hexValue? c).isNone) ha] at hsk
        have := (List.dropWhile_suffix (fun c => (hexValue? c).isNone) (l := l)).length_le
        rw [hsk] at this
        simp at this
      · rw [List.cons_append, List.dropWhile_cons_of_neg (p := fun c => (hexValue? c).isNone) ha]
    rw [hd, this]
    have key : ∀ (n : Nat) (t : Bytes), t.length = 2 * n → hexPairs (t ++ [d]) = hexPairs t := by
      intro n
      induction n with
      | zero =>
        intro t ht
        rw [List.eq_nil_of_length_eq_zero ht]
        rfl
      | succ n ih =>
        intro t ht
        match t, ht with
        | a :: b :: t, ht =>
          simp only [List.cons_append]
          unfold hexPairs
          rw [ih t (by simp only [List.length_cons] at ht; omega)]
    rw [key 31 _ (by rw [List.length_take]; omega), hpr]
  have hid : idFrom (c :: text) = id ++ [0] := by
    unfold idFrom
    rw [hp, hl]
    rfl
  rw [hid] at e2
  exact ⟨i, e1, e0, by simpa using e2⟩

/-- An output with an empty script can be spent by anybody: with an input script that pushes a one. -/
theorem anyone_spends {x : Transaction} {i : Nat} {inp : In} (hi : x.ins[i]? = some inp) (hs : inp.script = [1, 1]) (hw : inp.witness = []) (amount : Nat) :
    InputOk x i amount [] := by
  refine .bare _ inp [[1]] hi ?_ hw ?_ ?_ ⟨[1], [], rfl, by decide +kernel⟩
  · rw [hs]
    exact .cons (d := [1]) (rest := []) (by decide +kernel) .nil
  · rintro ⟨v, p, h, -⟩
    cases h
  · rintro ⟨h, -, e⟩
    cases e

/-- C102: an output made from a text which is not understood as an address counts as valid and can be spent by anybody: by every transaction with an input
for it that pushes a one. -/
theorem C102_bad_address {amount : UInt64} {text : Bytes} {sc : Script} (h : ({} : Script).fromAddress text = .ok sc) (hs : sc.Holds []) :
    ∃ o, TxOut.ofAddress amount text = .ok o ∧ o.status = .done ∧ o.Holds ⟨amount.toNat, []⟩ ∧
      ∀ (x : Transaction) (i : Nat) (inp : In), x.ins[i]? = some inp → inp.script = [1, 1] → inp.witness = [] → InputOk x i amount.toNat [] := by
  obtain ⟨o, e1, e2, e3⟩ := C102_out_address (amount := amount) h hs
  exact ⟨o, e1, e2, e3, fun x i inp hi hs hw => anyone_spends hi hs hw _⟩

/-- C102: this concerns every correct witness address of the network Regtest. -/
theorem C102_regtest_anyone (amount : UInt64) (sc : Script) (prog buffer : Bytes) (hp : prog.length = 20 ∨ prog.length = 32) (hs : sc.Holds (witnessScript 0 prog))
    (hb : 64 ≤ buffer.length) :
    ∃ text o, sc.address buffer regtest = .ok (text ++ zeros (buffer.length - text.length), text.length) ∧ SegwitAddress text regtest.bech32 0 prog ∧
      TxOut.ofAddress amount text = .ok o ∧ o.status = .done ∧ o.Holds ⟨amount.toNat, []⟩ ∧
      ∀ (x : Transaction) (i : Nat) (inp : In), x.ins[i]? = some inp → inp.script = [1, 1] → inp.witness = [] → InputOk x i amount.toNat [] := by
  obtain ⟨text, e1, e2, e3⟩ := C23_regtest_wrong sc {} prog buffer hp hs hb
  obtain ⟨o, f1, f2, f3, f4⟩ := C102_bad_address (amount := amount) e3 ⟨rfl, rfl⟩
  exact ⟨text, o, e1, e2, f1, f2, f3, f4⟩

/-- C102: and every text of more than 100 characters. -/
theorem C102_long_anyone (amount : UInt64) (text : Bytes) (h : 100 < text.length) :
    ∃ o, TxOut.ofAddress amount text = .ok o ∧ o.status = .done ∧ o.Holds ⟨amount.toNat, []⟩ := by
  obtain ⟨o, f1, f2, f3, -⟩ := C102_bad_address (amount := amount) (text := text) (sc := {}) (by
    unfold Script.fromAddress
    rw [if_pos h]
    rfl) ⟨rfl, rfl⟩
  exact ⟨o, f1, f2, f3⟩

/-! ### Examples -/

/-- An id in capital letters. -/
example : (str "00FF" ++ List.replicate 60 65).map lower = hexText (0x00 :: 0xff :: List.replicate 30 0xaa) := by decide +kernel

/-- C102_parent: an input that spends the example transaction. -/
example : ∃ text i, exTx.txidString = .ok text ∧ TxIn.ofText text 1 0xffffffff = .ok i ∧ i.Holds ⟨Spec.hash256 (legacyBytes exTxSpec), 1, [], 0xffffffff, []⟩ :=
  C102_parent exTx exTxSpec exTx_holds (by decide) 1 0xffffffff

/-- C102_blank_shifts: a blank. -/
example : hexValue? 32 = none ∧ (hexText (List.replicate 31 7 ++ [9])).map lower = hexText (List.replicate 31 7 ++ [9]) := by decide +kernel

/-- C102_regtest_anyone, C102_out_witness: a script with a witness program. -/
example : ∃ sc : Script, sc.Holds (witnessScript 0 (zeros 20)) := ⟨{ scriptLen := 22, arr := witnessScript 0 (zeros 20) }, rfl, rfl⟩

end UB
