import Verif.Props.Parse

/-
C81: on which bytes parsing a script, an input, an output, a witness or a transaction executes undefined behaviour.
-/

namespace UB
open Spec

/-- The bytes start with an eight-byte length (`ff`) of which at least five bytes are there, or exactly four which
make the 32-bit value negative. -/
def Spec.HugeLen (p : Bytes) : Prop := ∃ r, p = 0xff :: r ∧ (5 ≤ r.length ∨ r.length = 4 ∧ 2 ^ 31 ≤ leValue r)

/-- A witness some element of which starts with such a length, all elements before it being well formed. -/
def Spec.HugeItem (p : Bytes) : Prop := ∃ (n : UInt8) (es : List Bytes) (q : Bytes), p = n :: (es.flatMap varBytes ++ q) ∧ n < 0xfd ∧
  es.length < n.toNat ∧ (∀ e ∈ es, e.length < 2 ^ 31) ∧ HugeLen q

theorem hugeLen_iff (p : Bytes) : HugeLen p ↔ readVar p = .bad ∧ ∃ r, p = 0xff :: r := by
  constructor
  · rintro ⟨r, rfl, h⟩
    refine ⟨?_, r, rfl⟩
    simp only [readVar, if_true]
    rw [if_neg (by omega)]
  · rintro ⟨h, r, rfl⟩
    refine ⟨r, rfl, ?_⟩
    simp only [readVar, if_true] at h
    split_ifs at h
    omega

theorem HugeLen.wide {p : Bytes} (h : HugeLen p) : Wide p := by
  obtain ⟨r, rfl, h⟩ := h
  exact ⟨[], r, rfl, by omega⟩

/-! ### One piece, exactly -/

/-- C81 for scripts: parsing any bytes into an object which is not in the middle of a parse executes undefined behaviour exactly
when they start with an eight-byte length. -/
theorem C81_script (sc : Script) (hr : sc.Ready) (bs : Bytes) (hb : bs ≠ []) :
    (sc.fromStream (.of bs)).1.status = .ub ↔ HugeLen bs := by
  have h := Script.feed sc [] bs (Or.inl ⟨hr, rfl, hb⟩)
  unfold Script.Outcome at h
  rw [List.nil_append] at h
  rw [hugeLen_iff]
  cases e : readVar bs with
  | more => rw [e] at h; rw [h.1.status]; simp
  | ok d r => rw [e] at h; rw [h.1]; simp
  | bad => rw [e] at h; rw [h.2.1]; simp

theorem fedW_ub {β : Type} {W : Bytes → Prop} {rd : Bytes → Outcome β} {M : Bytes → Prop} {D : β → Prop} {st : Status} {n : Nat} {s : PStream} {bs : Bytes}
    (h : FedW W rd M D st n s [] bs) : st = .ub ↔ rd bs = .bad ∧ W bs := by
  unfold FedW at h
  rw [List.nil_append] at h
  cases e : rd bs with
  | more => rw [e] at h; rw [h.1]; simp
  | ok d r => rw [e] at h; rw [h.1]; simp
  | bad => rw [e] at h; rw [h.2.1]; simp

/-- C81 for inputs: exactly when the script behind hash and index starts with an eight-byte length. -/
theorem C81_txin (t : TxIn) (hr : t.Ready) (bs : Bytes) : (t.fromStream (.of bs)).1.status = .ub ↔ HugeLen (bs.drop 36) := by
  rw [fedW_ub (TxIn.feed_w t [] bs (Or.inl ⟨hr, rfl⟩)), hugeLen_iff]
  refine and_congr_left fun ⟨r, e⟩ => ?_
  have hl : ¬ bs.length < 36 := fun h => by rw [List.drop_of_length_le (by omega)] at e; cases e
  unfold readIn
  rw [if_neg hl]
  cases e2 : readVar (bs.drop 36) with
  | more => simp
  | ok d r => simp only; split_ifs <;> simp
  | bad => simp

/-- C81 for outputs: exactly when the script behind the amount starts with an eight-byte length. -/
theorem C81_txout (t : TxOut) (hr : t.Ready) (bs : Bytes) : (t.fromStream (.of bs)).1.status = .ub ↔ HugeLen (bs.drop 8) := by
  rw [fedW_ub (TxOut.feed_w t [] bs (Or.inl ⟨hr, rfl⟩)), hugeLen_iff]
  refine and_congr_left fun ⟨r, e⟩ => ?_
  have hl : ¬ bs.length < 8 := fun h => by rw [List.drop_of_length_le (by omega)] at e; cases e
  unfold readOut
  rw [if_neg hl]
  cases e2 : readVar (bs.drop 8) with
  | more => simp
  | ok d r => simp
  | bad => simp

theorem wideMany_iff : ∀ (n : Nat) (p : Bytes), Witness.wideMany n p ↔ ∃ (es : List Bytes) (q : Bytes), p = es.flatMap varBytes ++ q ∧ es.length < n ∧
    (∀ e ∈ es, e.length < 2 ^ 31) ∧ HugeLen q
  | 0, p => by simp [Witness.wideMany]
  | n + 1, p => by
    cases e : readVar p with
    | more =>
      simp only [Witness.wideMany, e, false_iff]
      rintro ⟨es, q, rfl, h1, h2, h3⟩
      cases es with
      | nil => rw [List.flatMap_nil, List.nil_append, ((hugeLen_iff q).mp h3).1] at e; cases e
      | cons d es =>
        rw [List.flatMap_cons, List.append_assoc, codecVar.complete d _ (h2 d (by simp))] at e; cases e
    | bad =>
      rw [Witness.wideMany_bad n e]
      constructor
      · intro h; exact ⟨[], p, rfl, by simp, by simp, (hugeLen_iff p).mpr ⟨e, h⟩⟩
      · rintro ⟨es, q, rfl, h1, h2, h3⟩
        cases es with
        | nil => exact ((hugeLen_iff _).mp h3).2
        | cons d es => rw [List.flatMap_cons, List.append_assoc, codecVar.complete d _ (h2 d (by simp))] at e; cases e
    | ok d r =>
      rw [Witness.wideMany_ok n e, wideMany_iff n r]
      obtain ⟨hp, hd⟩ := codecVar.sound p d r e
      constructor
      · rintro ⟨es, q, rfl, h1, h2, h3⟩
        refine ⟨d :: es, q, by rw [hp]; simp, by simpa using h1, ?_, h3⟩
        intro x hx
        rcases List.mem_cons.mp hx with rfl | hx
        · exact hd
        · exact h2 x hx
      · rintro ⟨es, q, rfl, h1, h2, h3⟩
        cases es with
        | nil => rw [List.flatMap_nil, List.nil_append, ((hugeLen_iff q).mp h3).1] at e; cases e
        | cons d' es =>
          rw [List.flatMap_cons, List.append_assoc, codecVar.complete d' _ (h2 d' (by simp))] at e
          cases e
          exact ⟨es, q, rfl, by simpa using h1, fun x hx => h2 x (by simp [hx]), h3⟩

/-- C81 for witnesses: exactly when some element starts with an eight-byte length and everything before it is well formed. -/
theorem C81_witness (w : Witness) (hr : w.status = .done) (bs : Bytes) : (w.fromStream (.of bs)).1.status = .ub ↔ HugeItem bs := by
  have hiff : HugeItem bs ↔ Witness.wideWitness bs := by
    unfold HugeItem
    cases bs with
    | nil => simp [Witness.wideWitness]
    | cons b r =>
      simp only [Witness.wideWitness, wideMany_iff]
      constructor
      · rintro ⟨n, es, q, h, h1, h2, h3, h4⟩
        cases h
        exact ⟨h1, es, q, rfl, h2, h3, h4⟩
      · rintro ⟨h1, es, q, rfl, h2, h3, h4⟩
        exact ⟨b, es, q, rfl, h1, h2, h3, h4⟩
  rw [hiff]
  by_cases hb : bs = []
  · subst hb
    rw [(Witness.fromStream_empty w hr).1]
    simp [Witness.wideWitness]
  · have h := Witness.feed w [] bs (Or.inl ⟨hr, rfl, hb⟩)
    unfold Witness.Outcome at h
    rw [List.nil_append] at h
    have hbad : Witness.wideWitness bs → readWitness bs = .bad := by
      intro hw
      cases bs with
      | nil => exact hw.elim
      | cons b r =>
        have : ∀ (n : Nat) (p : Bytes), Witness.wideMany n p → readMany readVar n p = .bad := by
          intro n
          induction n with
          | zero => intro p h; exact h.elim
          | succ n ih =>
            intro p h
            cases e : readVar p with
            | more => simp only [Witness.wideMany, e] at h
            | bad => exact readMany_bad _ e
            | ok d r => exact readMany_ok_bad _ e (ih r ((Witness.wideMany_ok n e).mp h))
        simp only [readWitness]
        rw [if_pos hw.1]
        exact this _ _ hw.2
    cases e : readWitness bs with
    | bad => rw [e] at h; exact h.2.1
    | more =>
      rw [e] at h
      have : ¬ Witness.wideWitness bs := fun hw => by rw [hbad hw] at e; cases e
      rcases h.2.2 with ⟨g, _⟩ | ⟨_, _, _, _, g | ⟨g, _⟩⟩ <;> (rw [g]; simp [this])
    | ok ds r =>
      rw [e] at h
      have : ¬ Witness.wideWitness bs := fun hw => by rw [hbad hw] at e; cases e
      rw [h.1]; simp [this]

/-! ### Transactions -/

/-- C81 for transactions, in one piece: undefined behaviour only on bytes which are no transaction, and not the beginning of one either, and
which contain `ff` with at least four bytes behind it. -/
theorem C81_tx (t : Tx) (hr : t.status = .done) (bs : Bytes) (h : (t.fromStream (.of bs)).1.status = .ub) : readTx bs = .bad ∧ Wide bs := by
  have h1 := Tx.feed t [] bs (Or.inl ⟨hr, rfl⟩)
  unfold Tx.Out at h1
  rw [List.nil_append] at h1
  cases e : readTx bs with
  | more =>
    rw [e] at h1
    rcases h1 with ⟨g, _⟩ | ⟨_, g | g | ⟨g, _⟩⟩
    · rw [h] at g; cases g
    · rw [h] at g; cases g
    · rw [h] at g; cases g
    · rw [h] at g; cases g
  | bad => rw [e] at h1; exact ⟨rfl, h1.2 h⟩
  | ok x r => rw [e] at h1; rw [h] at h1; cases h1.1

/-- The first pass over fresh inputs, of which the first ones are well formed. -/
theorem parseIns_prefix (k : Nat) : ∀ (is : List In) (p : Bytes), (∀ i ∈ is, ValidIn i ∧ i.witness = []) → HugeLen (p.drop 36) →
    ∃ pre x post, (Tx.parseAll TxIn.fromStream (List.replicate (is.length + (k + 1)) {}) (.of (is.flatMap inBytes ++ p))).1 = pre ++ x :: post ∧
      (∀ a ∈ pre, a.status = .done) ∧ x.status = .ub
  | [], p, _, hp => by
    rw [List.length_nil, Nat.zero_add, List.replicate_succ, List.flatMap_nil, List.nil_append, parseAll_cons]
    exact ⟨[], _, _, rfl, by simp, (C81_txin {} ⟨rfl, by simp, rfl⟩ p).mpr hp⟩
  | i :: is, p, hv, hp => by
    rw [show (i :: is).length + (k + 1) = (is.length + (k + 1)) + 1 by simp; omega, List.replicate_succ, List.flatMap_cons, List.append_assoc, parseAll_cons]
    have hf := TxIn.fresh (inBytes i ++ (is.flatMap inBytes ++ p))
    unfold Fed at hf
    rw [List.nil_append, codecIn.complete i _ (hv i (by simp))] at hf
    obtain ⟨h1, _, _, h4⟩ := hf
    rw [h4]
    obtain ⟨pre, x, post, e, h5, h6⟩ := parseIns_prefix k is p (fun j hj => hv j (by simp [hj])) hp
    rw [e]
    refine ⟨_ :: pre, x, post, rfl, ?_, h6⟩
    intro a ha
    rcases List.mem_cons.mp ha with rfl | ha
    · exact h1
    · exact h5 a ha

/-- C81: such bytes are not merely a possibility. Any transaction without witnesses, one of whose inputs has a script with an eight-byte
length, executes undefined behaviour when it is parsed, whatever the inputs before it and whatever follows. -/
theorem C81_tx_input (t : Tx) (hr : t.status = .done) (vb : Bytes) (n : UInt8) (is : List In) (p : Bytes) (hv : vb.length = 4)
    (hn : is.length < n.toNat) (hi : ∀ i ∈ is, ValidIn i ∧ i.witness = []) (hp : HugeLen (p.drop 36)) :
    (t.fromStream (.of (vb ++ n :: (is.flatMap inBytes ++ p)))).1.status = .ub := by
  obtain ⟨k, hk⟩ : ∃ k, n.toNat = is.length + (k + 1) := ⟨n.toNat - is.length - 1, by omega⟩
  obtain ⟨pre, x, post, e, h1, h2⟩ := parseIns_prefix k is p hi hp
  rw [← hk] at e
  have hn0 : n ≠ 0 := by rintro rfl; simp at hn
  rw [Tx.fromStream_eq t _ (by rw [hr]; exact not_stopped_done)]
  have hs : t.start = { t with status := .incomplete, txIns := [], txOuts := [], bytesParsed := 0, version := 0, locktime := 0, segwitFlag := 0 } := by
    unfold Tx.start; rw [if_pos hr]
  rw [hs]
  generalize hpa : Tx.parseAll TxIn.fromStream (List.replicate n.toNat {}) (.of (is.flatMap inBytes ++ p)) = y at e
  obtain ⟨ins, m, s⟩ := y
  simp only at e
  have hV : ∃ v, ({ t with status := .incomplete, txIns := [], txOuts := [], bytesParsed := 0, version := 0, locktime := 0, segwitFlag := 0 } : Tx).readVersion
      (.of (vb ++ n :: (is.flatMap inBytes ++ p))) = ({ t with status := .incomplete, txIns := ins, txOuts := [], bytesParsed := 0, version := v, locktime := 0, segwitFlag := 0 }, 5 + m, s) := by
    refine ⟨accLE 0 0 vb, ?_⟩
    unfold Tx.readVersion
    simp only [PStream.readN_of, Nat.sub_zero]
    rw [List.take_append_of_le_length (by omega), List.take_of_length_le (by omega), List.drop_append_of_le_length (by omega), List.drop_of_length_le (by omega),
      List.nil_append, if_pos ⟨rfl, by omega⟩]
    have hrb : (PStream.of (n :: (is.flatMap inBytes ++ p))).readByte = (n, .of (is.flatMap inBytes ++ p)) := rfl
    rw [hrb]
    simp only
    rw [if_neg hn0, hpa]
    simp only [hv]
  obtain ⟨v, hV⟩ := hV
  simp only
  rw [hV]
  simp only
  have hF : ∀ (t : Tx) (br : Nat) (s : PStream), t.segwitFlag = 0 → t.readFlag br s = (true, br, s) := by
    intro t br s h
    unfold Tx.readFlag
    rw [if_neg (by rw [h]; omega)]
  have hC : ∀ (t : Tx) (br : Nat) (s : PStream), t.segwitFlag = 0 → t.readSegwitCount br s = (t, br, s) := by
    intro t br s h
    unfold Tx.readSegwitCount
    rw [if_neg (by rw [h]; omega)]
  rw [hF _ _ _ rfl, if_pos rfl, hC _ _ _ rfl]
  refine Tx.readIns_stop _ _ _ .ub ?_
  have hcl := contLoop_stopped (f := TxIn.fromStream) (st := (·.status)) s pre x post h1 (Or.inr h2)
  unfold Tx.contAll
  simp only
  rw [e, hcl]
  simp only
  rw [if_pos]
  simp [h2]

/-! ### Several pieces -/

/-- C81 for scripts in any pieces. -/
theorem C81_script_pieces (sc : Script) (hr : sc.Ready) (cs : List Bytes) (h0 : cs ≠ []) (hne : ∀ c ∈ cs, c ≠ [])
    (h : (feedPieces Script.fromStream (·.status) sc cs).1.status = .ub) : readVar cs.flatten = .bad ∧ Wide cs.flatten := by
  have h1 := pieces_spec (f := Script.fromStream) (st := (·.status)) (Done := Script.Holds) (Rel := fun sc p => (sc.Ready ∧ p = []) ∨ sc.Mid p) (rd := readVar)
    (fun _ => True) (fun a p c h hc _ => script_step a p c h hc) (fun _ _ _ c h => readVar_mono c h) (fun _ c h => readVar_bad_mono c h) cs sc [] (Or.inl ⟨hr, rfl⟩)
    h0 hne (fun _ _ => trivial)
  rw [List.nil_append] at h1
  cases e : readVar cs.flatten with
  | more => rw [e] at h1; rw [h] at h1; cases h1
  | ok d r => rw [e] at h1; rw [h] at h1; cases h1.1
  | bad => rw [e] at h1; exact ⟨rfl, h1.2 h⟩

/-- C81 for inputs in any pieces. -/
theorem C81_txin_pieces (t : TxIn) (hr : t.Ready) (cs : List Bytes) (h0 : cs ≠ []) (hne : ∀ c ∈ cs, c ≠ [])
    (h : (feedPieces TxIn.fromStream (·.status) t cs).1.status = .ub) : readIn cs.flatten = .bad ∧ Wide cs.flatten := by
  have h1 := pieces_spec (f := TxIn.fromStream) (st := (·.status)) (Done := TxIn.HoldsBody) (Rel := fun sc p => (sc.Ready ∧ p = []) ∨ sc.Mid p) (rd := readIn)
    (fun _ => True) (fun a p c h _ _ => txin_step a p c h) (fun _ _ _ c h => readIn_mono c h) (fun _ c h => readIn_bad_mono c h) cs t [] (Or.inl ⟨hr, rfl⟩)
    h0 hne (fun _ _ => trivial)
  rw [List.nil_append] at h1
  cases e : readIn cs.flatten with
  | more => rw [e] at h1; rw [h] at h1; cases h1
  | ok d r => rw [e] at h1; rw [h] at h1; cases h1.1
  | bad => rw [e] at h1; exact ⟨rfl, h1.2 h⟩

/-- C81 for outputs in any pieces. -/
theorem C81_txout_pieces (t : TxOut) (hr : t.Ready) (cs : List Bytes) (h0 : cs ≠ []) (hne : ∀ c ∈ cs, c ≠ [])
    (h : (feedPieces TxOut.fromStream (·.status) t cs).1.status = .ub) : readOut cs.flatten = .bad ∧ Wide cs.flatten := by
  have h1 := pieces_spec (f := TxOut.fromStream) (st := (·.status)) (Done := TxOut.Holds) (Rel := fun sc p => (sc.Ready ∧ p = []) ∨ sc.Mid p) (rd := readOut)
    (fun _ => True) (fun a p c h _ _ => txout_step a p c h) (fun _ _ _ c h => readOut_mono c h) (fun _ c h => readOut_bad_mono c h) cs t [] (Or.inl ⟨hr, rfl⟩)
    h0 hne (fun _ _ => trivial)
  rw [List.nil_append] at h1
  cases e : readOut cs.flatten with
  | more => rw [e] at h1; rw [h] at h1; cases h1
  | ok d r => rw [e] at h1; rw [h] at h1; cases h1.1
  | bad => rw [e] at h1; exact ⟨rfl, h1.2 h⟩

/-- C81 for witnesses when no piece ends inside an item length of several bytes. Missing: pieces which do. -/
theorem C81_witness_pieces_partial (w : Witness) (hr : w.status = .done) (cs : List Bytes) (h0 : cs ≠ []) (hne : ∀ c ∈ cs, c ≠ [])
    (hcut : ∀ k, ¬ CutInPrefix (cs.take (k + 1)).flatten)
    (h : (feedPieces Witness.fromStream (·.status) w cs).1.status = .ub) : readWitness cs.flatten = .bad ∧ Wide cs.flatten := by
  have h1 := pieces_spec (f := Witness.fromStream) (st := (·.status)) (Done := Witness.Holds) (Rel := fun w p => (w.status = .done ∧ p = []) ∨ w.Mid p) (rd := readWitness)
    (fun b => ¬ CutInPrefix b) (fun a p c h hc hs => witness_step a p c h hc hs) (fun _ _ _ c h => readWitness_mono c h) (fun _ c h => readWitness_bad_mono c h)
    cs w [] (Or.inl ⟨hr, rfl⟩) h0 hne (fun k _ => by simpa using hcut k)
  rw [List.nil_append] at h1
  cases e : readWitness cs.flatten with
  | more => rw [e] at h1; rw [h] at h1; cases h1
  | ok d r => rw [e] at h1; rw [h] at h1; cases h1.1
  | bad => rw [e] at h1; exact ⟨rfl, h1.2 h⟩

/-- C81 for transactions when no piece ends where C15 fails. Missing: such pieces. -/
theorem C81_tx_pieces_partial (t : Tx) (hr : t.status = .done) (cs : List Bytes) (h0 : cs ≠ []) (hne : ∀ c ∈ cs, c ≠ [])
    (hcut : ∀ k, ¬ Fragile (cs.take (k + 1)).flatten)
    (h : (feedPieces Tx.fromStream (·.status) t cs).1.status = .ub) : readTx cs.flatten = .bad ∧ Wide cs.flatten := by
  have h1 := pieces_spec (f := Tx.fromStream) (st := (·.status)) (Done := Tx.Holds) (Rel := Tx.Ready) (rd := readTx) (fun b => ¬ Fragile b)
    (fun a p c h _ hsafe => tx_step a p c h hsafe) (fun _ _ _ c h => readTx_mono c h) (fun _ c h => readTx_bad_mono c h) cs t [] (Or.inl ⟨hr, rfl⟩) h0 hne
    (fun k _ => by simpa using hcut k)
  rw [List.nil_append] at h1
  cases e : readTx cs.flatten with
  | more => rw [e] at h1; rw [h] at h1; cases h1
  | ok d r => rw [e] at h1; rw [h] at h1; cases h1.1
  | bad => rw [e] at h1; exact ⟨rfl, h1.2 h⟩

/-! ### The hypotheses are met -/

example : HugeLen [0xff, 0, 0, 0, 0, 1] := ⟨_, rfl, Or.inl (by decide)⟩
example : ({} : Script).Ready ∧ ({} : TxIn).Ready ∧ ({} : TxOut).Ready := ⟨⟨rfl, rfl⟩, ⟨rfl, by simp, rfl⟩, ⟨rfl, rfl⟩⟩
/-- A transaction of 47 bytes which does it, behind no good input. -/
example : (({} : Tx).fromStream (.of ([2, 0, 0, 0] ++ 1 :: ([].flatMap inBytes ++ (zeros 36 ++ [0xff, 0, 0, 0, 0, 1]))))).1.status = .ub :=
  C81_tx_input {} rfl [2, 0, 0, 0] 1 [] _ rfl (by decide) (by simp) ⟨_, rfl, Or.inl (by decide)⟩
example : ValidIn exIn := ⟨by decide, by decide, by decide, by decide⟩
/-- Bytes on which nothing undefined can happen, and which are not empty. -/
example : ¬ Wide ([2, 0, 0, 0, 1] ++ zeros 36 ++ [0xfe, 1, 2, 3, 0x80, 5]) := by
  rintro ⟨pre, r, h, _⟩
  have : (0xff : UInt8) ∈ [2, 0, 0, 0, 1] ++ zeros 36 ++ [0xfe, 1, 2, 3, 0x80, 5] := by rw [h]; simp
  revert this; decide
/-- Pieces which end nowhere critical. -/
example : ∀ k, ¬ Fragile (([[2, 0, 0, 0, 1], zeros 36, [0xff, 1, 2], [3, 4, 5]] : List Bytes).take (k + 1)).flatten := by
  rintro k ⟨hdr, n, v, q, is, o, r, ⟨vb, h1, h2, h3, h4⟩, h6, _⟩
  rcases h4 with ⟨h4, _⟩ | ⟨_, h5⟩
  · cases h4
  · have h7 : (([[2, 0, 0, 0, 1], zeros 36, [0xff, 1, 2], [3, 4, 5]] : List Bytes).take (k + 1)).flatten[4]? = some 1 := by
      rw [List.take_succ_cons, List.flatten_cons]; rfl
    rw [h6, h5, List.append_assoc, List.getElem?_append_right (by omega), h1] at h7
    simp at h7

end UB
