import Verif.Lemmas.PSBTSections
import Verif.Props.TxHash
import Verif.Props.Parse

/-
The fields of the input and output maps of a PSBT: what a parsed object holds.
-/

namespace UB
open Spec

namespace Tx
theorem contAll_some {α : Type} (f : α → PStream → α × Nat × PStream) (g : α → Status) (xs : List α) (s : PStream) :
    (contAll f g xs s).2.2.2 ≠ some .done := by
  unfold contAll
  generalize contLoop f g xs s = y
  obtain ⟨a, b, c, d⟩ := y
  dsimp only
  split
  · simp
  · split <;> simp

theorem readLock_done {t : Tx} (h : t.status ≠ .done) (br : Nat) (s : PStream) (hd : (t.readLock br s).1.status = .done) :
    (t.readLock br s).1.completed = true := by
  unfold readLock at hd ⊢
  generalize s.readN (t.lockOffset + 4 - (br + t.bytesParsed)) = y at hd ⊢
  obtain ⟨q, s⟩ := y
  dsimp only at hd ⊢
  split at hd
  · cases hd
  · rename_i hn
    rw [if_neg hn]
    unfold finish at hd ⊢
    dsimp only at hd ⊢
    split at hd
    · rename_i h1; exact h1.2
    · exact absurd hd h

theorem readWitnesses_done {t : Tx} (h : t.status ≠ .done) (br : Nat) (s : PStream) (hd : (t.readWitnesses br s).1.status = .done) :
    (t.readWitnesses br s).1.completed = true := by
  unfold readWitnesses at hd ⊢
  split
  · rename_i hs
    rw [if_pos hs] at hd
    generalize (if br + t.bytesParsed = t.witOffset then parseAll parseWitness t.txIns s else (t.txIns, 0, s)) = y at hd ⊢
    obtain ⟨ins, n, s⟩ := y
    dsimp only at hd ⊢
    have := contAll_some parseWitness (·.witness.status) ins s
    generalize contAll parseWitness (·.witness.status) ins s = y at hd ⊢ this
    obtain ⟨ins, m, s, r⟩ := y
    dsimp only at hd ⊢ this
    cases r with
    | some st => exact absurd (by rw [← hd]; rfl) this
    | none => exact readLock_done (by exact h) _ _ hd
  · rename_i hs
    rw [if_neg hs] at hd
    exact readLock_done h _ _ hd

theorem readOutCount_status (t : Tx) (br : Nat) (s : PStream) : (t.readOutCount br s).1.status = t.status := by
  unfold readOutCount; split <;> rfl

theorem readOuts_done {t : Tx} (h : t.status ≠ .done) (br : Nat) (s : PStream) (hd : (t.readOuts br s).1.status = .done) :
    (t.readOuts br s).1.completed = true := by
  unfold readOuts at hd ⊢
  have h1 := readOutCount_status t br s
  generalize t.readOutCount br s = y at hd ⊢ h1
  obtain ⟨t1, br, s⟩ := y
  dsimp only at hd ⊢ h1
  have := contAll_some TxOut.fromStream (·.status) t1.txOuts s
  generalize contAll TxOut.fromStream (·.status) t1.txOuts s = y at hd ⊢ this
  obtain ⟨outs, m, s, r⟩ := y
  dsimp only at hd ⊢ this
  cases r with
  | some st => exact absurd (by rw [← hd]; rfl) this
  | none => exact readWitnesses_done (by rw [← h1] at h; exact h) _ _ hd

theorem readIns_done {t : Tx} (h : t.status ≠ .done) (br : Nat) (s : PStream) (hd : (t.readIns br s).1.status = .done) :
    (t.readIns br s).1.completed = true := by
  unfold readIns at hd ⊢
  have := contAll_some TxIn.fromStream (·.status) t.txIns s
  generalize contAll TxIn.fromStream (·.status) t.txIns s = y at hd ⊢ this
  obtain ⟨outs, m, s, r⟩ := y
  dsimp only at hd ⊢ this
  cases r with
  | some st => exact absurd (by rw [← hd]; rfl) this
  | none => exact readOuts_done (by exact h) _ _ hd

theorem readVersion_status (t : Tx) (s : PStream) : (t.readVersion s).1.status = t.status := by
  unfold readVersion
  dsimp only
  split
  · split <;> rfl
  · rfl

theorem readSegwitCount_status (t : Tx) (br : Nat) (s : PStream) : (t.readSegwitCount br s).1.status = t.status := by
  unfold readSegwitCount; split <;> rfl

/-- A parsed transaction is complete in all its parts. -/
theorem fromStream_completed (t : Tx) (s : PStream) (hd : (t.fromStream s).1.status = .done) : (t.fromStream s).1.completed = true := by
  unfold fromStream at hd ⊢
  split at hd
  · rename_i h
    rw [hd] at h
    simp at h
  · rename_i h
    rw [if_neg h]
    have h1 := readVersion_status t.start s
    generalize t.start.readVersion s = y at hd ⊢ h1
    obtain ⟨t1, br, s⟩ := y
    dsimp only at hd ⊢ h1
    generalize t1.readFlag br s = y at hd ⊢
    obtain ⟨g, br, s⟩ := y
    dsimp only at hd ⊢
    cases g with
    | false =>
      simp only [Bool.false_eq_true, if_false] at hd
      cases hd
    | true =>
      simp only [if_true] at hd ⊢
      have h2 := readSegwitCount_status t1 br s
      generalize t1.readSegwitCount br s = y at hd ⊢ h2
      obtain ⟨t2, br, s⟩ := y
      dsimp only at hd ⊢ h2
      refine readIns_done ?_ _ _ hd
      rw [h2, h1]
      unfold start
      simp

theorem fromStream_outs_done {t : Tx} {s : PStream} (hd : (t.fromStream s).1.status = .done) {o : TxOut} (ho : o ∈ (t.fromStream s).1.txOuts) : o.status = .done := by
  have := fromStream_completed t s hd
  unfold completed at this
  rw [Bool.and_eq_true, List.all_eq_true, List.all_eq_true] at this
  simpa using this.2 o ho
end Tx

/-! ### Sizes -/

theorem flatMap_length_le {α : Type} (f : α → Bytes) (B : Nat) : ∀ l : List α, (∀ y ∈ l, (f y).length ≤ B) → (l.flatMap f).length ≤ l.length * B
  | [], _ => by simp
  | x :: l, h => by
    have h1 := flatMap_length_le f B l (fun y hy => h y (List.mem_cons_of_mem _ hy))
    have h2 := h x (List.mem_cons_self ..)
    rw [List.flatMap_cons, List.length_append, List.length_cons, Nat.add_mul, Nat.one_mul]
    omega

/-- A transaction that has been read is far below the limits of the hash functions. -/
theorem sizes_wire (x : Transaction) (h : WireTx x) (hi : x.ins.length < 256) (ho : x.outs.length < 256) : Sizes x := by
  apply sizes_of
  have hv : ∀ d : Bytes, d.length < 2 ^ 31 → (varBytes d).length ≤ 2 ^ 32 := by
    intro d hd
    have := compactSize_length d.length
    unfold varBytes
    rw [List.length_append]
    omega
  have h1 : (x.ins.flatMap inBytes).length ≤ x.ins.length * 2 ^ 33 := by
    refine flatMap_length_le _ _ _ fun i hin => ?_
    have hp := (h.ins i hin).hash
    have := hv i.script (h.ins i hin).script
    unfold inBytes
    simp only [List.length_append, Spec.length_leBytes]
    omega
  have h2 : (x.outs.flatMap outBytes).length ≤ x.outs.length * 2 ^ 33 := by
    refine flatMap_length_le _ _ _ fun o hin => ?_
    have := hv o.script (h.outs o hin).2
    unfold outBytes
    simp only [List.length_append, Spec.length_leBytes]
    omega
  have h3 : (x.ins.flatMap fun i => witnessBytes i.witness).length ≤ x.ins.length * 2 ^ 41 := by
    refine flatMap_length_le _ _ _ fun i hin => ?_
    obtain ⟨a, b⟩ := h.items i hin
    have h4 := flatMap_length_le varBytes (2 ^ 32) i.witness (fun d hd => hv d (b d hd))
    have := compactSize_length i.witness.length
    unfold witnessBytes
    rw [List.length_append]
    have : i.witness.length * 2 ^ 32 ≤ 253 * 2 ^ 32 := Nat.mul_le_mul_right _ (by omega)
    omega
  have c1 := compactSize_length x.ins.length
  have c2 := compactSize_length x.outs.length
  have : x.ins.length * 2 ^ 33 ≤ 256 * 2 ^ 33 := Nat.mul_le_mul_right _ (by omega)
  have : x.outs.length * 2 ^ 33 ≤ 256 * 2 ^ 33 := Nat.mul_le_mul_right _ (by omega)
  have : x.ins.length * 2 ^ 41 ≤ 256 * 2 ^ 41 := Nat.mul_le_mul_right _ (by omega)
  unfold segwitBytes
  simp only [List.length_append, Spec.length_leBytes, List.length_cons, List.length_nil]
  omega

/-! ### The output that is spent -/

/-- The output at position `n` of a transaction with the given id (in internal byte order) that is serialized at the start of `v` (or is what
the parser makes of a truncated serialization, see C16). -/
def Spec.Authentic (id : Bytes) (n : Nat) (v : Bytes) (o : Out) : Prop :=
  ∃ x, hash256 (legacyBytes x) = id ∧ x.outs[n]? = some o ∧ ((∃ r, readTx v = .ok x r) ∨ (Fragile v ∧ Quirk v))

/-- What a pair of an input map says about the output that is spent: key `00`, a previous transaction, key `01`, the output itself. -/
def Spec.Spends (id : Bytes) (n : Nat) (q : Pair) (o : Out) : Prop :=
  (q.1 = [0] ∧ Authentic id n (q.2.drop (misread q.2.length)) o) ∨ (q.1 = [1] ∧ ∃ r, readOut (q.2.drop (misread q.2.length)) = .ok o r)

/-- The pair is about the output that is spent. -/
def AboutSpent (q : Pair) : Prop := keyCode q.1 = .ok 0 ∨ keyCode q.1 = .ok 1

theorem varBytes_two {k : Bytes} (hk : k.length < 2 ^ 31) (h : (varBytes k).length = 2) : k.length = 1 := by
  unfold varBytes compactSize at h
  split_ifs at h <;> simp at h <;> omega

theorem key_single {k : Bytes} {c : UInt8} (hk : k.length < 2 ^ 31) (hc : keyCode k = .ok c) (h : (varBytes k).length = 2) : k = [c] := by
  have h1 := varBytes_two hk h
  match k, h1 with
  | [b], _ =>
    unfold keyCode peek misread at hc
    simp at hc
    rw [hc]

theorem TxOut.assign_ready {a b : TxOut} {o : Out} (ha : a.Ready) (h : b.Holds o) (hb : b.status = .done) : (a.assign b).Ready :=
  ⟨hb, by have := (TxOut.assign_holds ha.2 h).script; rw [this.1, this.2]⟩

/-- What one accepted pair does to the recorded output. -/
theorem InMeta.add_txOut {junk : Bytes} {m m' : InMeta} {ti : TxIn} {code : UInt8} {k v : Bytes} {r : Int} (hg : PSBT.GoodPair (k, v))
    (hm : m.txOut.Ready) (hc : keyCode k = .ok code) (h : m.add junk ti code (varBytes k) (varBytes v) = .ok (r, m')) (h0 : 0 ≤ r) :
    m'.txOut.Ready ∧ (AboutSpent (k, v) → ∃ o, Spends ti.hash ti.outputIndex.toNat (k, v) o ∧ m'.txOut.Holds o) ∧ (¬ AboutSpent (k, v) → m'.txOut = m.txOut) := by
  have hcode : ∀ c : UInt8, AboutSpent (k, v) ↔ code = 0 ∨ code = 1 := by
    intro _
    unfold AboutSpent
    dsimp only
    rw [hc]
    constructor
    · rintro (h | h)
      · cases h; exact Or.inl rfl
      · cases h; exact Or.inr rfl
    · rintro (rfl | rfl)
      · exact Or.inl rfl
      · exact Or.inr rfl
  replace hcode := hcode 0
  have same : code ≠ 0 → code ≠ 1 → m'.txOut = m.txOut → m'.txOut.Ready ∧
      (AboutSpent (k, v) → ∃ o, Spends ti.hash ti.outputIndex.toNat (k, v) o ∧ m'.txOut.Holds o) ∧ (¬ AboutSpent (k, v) → m'.txOut = m.txOut) := by
    intro n0 n1 he
    refine ⟨by rw [he]; exact hm, fun ha => ?_, fun _ => he⟩
    rcases hcode.mp ha with h | h
    · exact absurd h n0
    · exact absurd h n1
  unfold InMeta.add at h
  by_cases c0 : code = 0
  · rw [if_pos c0] at h
    split at h
    · cases h; omega
    rename_i hl
    have hk : k = [0] := c0 ▸ key_single hg.2.1 hc (by omega)
    rw [drop_dataPos v hg.2.2] at h
    dsimp only at h
    split at h
    · cases h
    split at h
    · cases h; omega
    rename_i hd
    rw [not_not] at hd
    change (({} : Tx).fromStream (.of (v.drop (misread v.length)))).1.status = .done at hd
    obtain ⟨x, h2, hw, hi, ho, h1⟩ := Tx.done_body rfl hd
    change ((({} : Tx).fromStream (.of (v.drop (misread v.length)))).1.hash >>= _) = _ at h
    rw [Tx.hash_body _ x h2 (sizes_wire x hw hi ho), C.bind_ok] at h
    split at h
    · cases h; omega
    rename_i hid
    rw [not_not] at hid
    change (match (({} : Tx).fromStream (.of (v.drop (misread v.length)))).1.txOuts[ti.outputIndex.toNat]? with
      | none => _ | some o => _) = _ at h
    split at h
    · cases h; omega
    rename_i o ho'
    cases h
    have hst := Tx.fromStream_outs_done hd (List.mem_of_getElem? ho')
    obtain ⟨o', e1, e2⟩ : ∃ o', x.outs[ti.outputIndex.toNat]? = some o' ∧ o.Holds o' := by
      have h3 := List.forall₂_iff_get.mp h2.outs
      obtain ⟨hlt, he⟩ := List.getElem?_eq_some_iff.mp ho'
      refine ⟨x.outs[ti.outputIndex.toNat]'(by rw [← h3.1]; exact hlt), List.getElem?_eq_getElem _, ?_⟩
      have := h3.2 ti.outputIndex.toNat hlt (by rw [← h3.1]; exact hlt)
      rw [List.get_eq_getElem, he] at this
      exact this
    refine ⟨TxOut.assign_ready hm e2 hst, fun _ => ⟨o', Or.inl ⟨hk, x, hid, e1, h1⟩, TxOut.assign_holds hm.2 e2⟩, fun hn => absurd (hcode.mpr (Or.inl c0)) hn⟩
  rw [if_neg c0] at h
  by_cases c1 : code = 1
  · rw [if_pos c1] at h
    split at h
    · cases h; omega
    rename_i hl
    have hk : k = [1] := c1 ▸ key_single hg.2.1 hc (by omega)
    rw [drop_dataPos v hg.2.2] at h
    dsimp only at h
    split at h
    · cases h
    by_cases hd : (m.txOut.fromStream (.of (v.drop (misread v.length)))).1.status = .done
    swap
    · change (C.ok (if (m.txOut.fromStream (.of (v.drop (misread v.length)))).1.status ≠ .done then _ else _, _)) = _ at h
      rw [if_pos hd] at h
      cases h; omega
    cases h
    obtain ⟨o, rr, h1, h2, -⟩ := fed_done (TxOut.feed m.txOut [] (v.drop (misread v.length)) (Or.inl ⟨hm, rfl⟩)) hd
    refine ⟨⟨hd, by have := h2.script; rw [this.1, this.2]⟩, fun _ => ⟨o, Or.inr ⟨hk, rr, h1⟩, h2⟩, fun hn => absurd (hcode.mpr (Or.inr c1)) hn⟩
  rw [if_neg c1] at h
  refine same c0 c1 ?_
  by_cases c2 : code = 2
  · rw [if_pos c2] at h
    dsimp only at h
    split_ifs at h <;> cases h <;> rfl
  rw [if_neg c2] at h
  by_cases c4 : code = 4
  · rw [if_pos c4] at h
    dsimp only at h
    split_ifs at h <;> cases h <;> rfl
  rw [if_neg c4] at h
  by_cases c5 : code = 5
  · rw [if_pos c5] at h
    dsimp only at h
    split_ifs at h <;> cases h <;> rfl
  rw [if_neg c5] at h
  by_cases c6 : code = 6
  · rw [if_pos c6] at h
    cases hd : addDerivation junk m.derivations (varBytes k) (varBytes v) with
    | ub => rw [hd, C.bind_ub] at h; cases h
    | ok y => rw [hd, C.bind_ok] at h; cases h; rfl
  rw [if_neg c6] at h
  cases h
  rfl

/-- The output recorded for an input: taken from the last pair that speaks about it; every such pair has been checked. -/
theorem InRun.spent {ti : TxIn} {a b : InMeta} {ps : List Pair} (h : InRun ti a ps b) : (∀ q ∈ ps, PSBT.GoodPair q) → a.txOut.Ready →
    b.txOut.Ready ∧ (∀ q ∈ ps, AboutSpent q → ∃ o, Spends ti.hash ti.outputIndex.toNat q o) ∧
    (((∀ q ∈ ps, ¬ AboutSpent q) ∧ b.txOut = a.txOut) ∨
      ∃ pre q post o, ps = pre ++ q :: post ∧ (∀ q' ∈ post, ¬ AboutSpent q') ∧ AboutSpent q ∧ Spends ti.hash ti.outputIndex.toNat q o ∧ b.txOut.Holds o) := by
  induction h with
  | nil m => intro _ hr; exact ⟨hr, by simp, Or.inl ⟨by simp, rfl⟩⟩
  | @cons m m' m'' k v ps code junk r hc ha h0 hs ih =>
    intro hg hr
    obtain ⟨r1, r2, r3⟩ := InMeta.add_txOut (hg _ (List.mem_cons_self ..)) hr hc ha h0
    obtain ⟨i1, i2, i3⟩ := ih (fun q hq' => hg q (List.mem_cons_of_mem _ hq')) r1
    refine ⟨i1, ?_, ?_⟩
    · intro q hq' ha'
      rcases List.mem_cons.mp hq' with rfl | hq'
      · obtain ⟨o, ho, -⟩ := r2 ha'; exact ⟨o, ho⟩
      · exact i2 q hq' ha'
    · rcases i3 with ⟨n1, n2⟩ | ⟨pre, q, post, o, e, n1, n2, n3, n4⟩
      · by_cases hab : AboutSpent (k, v)
        · obtain ⟨o, ho1, ho2⟩ := r2 hab
          exact Or.inr ⟨[], (k, v), ps, o, rfl, n1, hab, ho1, n2 ▸ ho2⟩
        · refine Or.inl ⟨?_, n2.trans (r3 hab)⟩
          intro q hq'
          rcases List.mem_cons.mp hq' with rfl | hq'
          · exact hab
          · exact n1 q hq'
      · exact Or.inr ⟨(k, v) :: pre, q, post, o, by rw [e]; rfl, n1, n2, n3, n4⟩

end UB
