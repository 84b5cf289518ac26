import Verif.Model.Copy
import Verif.Spec.Pieces

/-! Which PSBT objects may be destroyed: an invariant of `from_stream` for arbitrary bytes. -/

namespace UB

/-- No entry whose members are not initialised. -/
def Derivation.AllReady (ds : List Derivation) : Prop := ∀ d ∈ ds, d.ready = true

namespace PSBT

/-- There is metadata for exactly the inputs and outputs of the transaction, all of it initialised. -/
structure Sane (p : PSBT) : Prop where
  ins : p.ins.length = p.tx.txIns.length
  outs : p.outs.length = p.tx.txOuts.length
  inReady : ∀ m ∈ p.ins, Derivation.AllReady m.derivations
  outReady : ∀ m ∈ p.outs, Derivation.AllReady m.derivations

theorem sane_fresh : ({} : PSBT).Sane := ⟨rfl, rfl, fun _ h => (by cases h), fun _ h => (by cases h)⟩

theorem all_ready_iff {ds : List Derivation} : ds.all (·.ready) = true ↔ Derivation.AllReady ds := by
  rw [List.all_eq_true]; rfl

theorem Sane.release {p : PSBT} (h : p.Sane) : p.release = .ok () := by
  unfold PSBT.release
  rw [if_pos]
  refine ⟨h.ins.ge, h.outs.ge, ?_, ?_⟩
  · rw [List.all_eq_true]
    exact fun m hm => all_ready_iff.2 (h.inReady m (List.mem_of_mem_take hm))
  · rw [List.all_eq_true]
    exact fun m hm => all_ready_iff.2 (h.outReady m (List.mem_of_mem_take hm))

theorem load_ready {d e : Derivation} {va : Bytes} (h : d.load va = .ok e) : e.ready = true := by
  unfold Derivation.load at h
  dsimp only at h
  cases h1 : UB.load va (dataPos va) 4 with
  | ub => rw [h1, C.bind_ub] at h; cases h
  | ok fp =>
    rw [h1, C.bind_ok] at h
    revert h
    cases (List.range ((va.length - dataPos va - 4) / 4 % 256)).mapM fun i => (do
      let b ← UB.load va (dataPos va + 4 * (i + 1)) 4
      return (littleEndianToInt b).toUInt32 : C UInt32) with
    | ub => intro h; cases h
    | ok path => intro h; cases h; rfl

theorem addDerivation_ready {junk : Bytes} {ds es : List Derivation} {ka va : Bytes} {r : Int} (h : addDerivation junk ds ka va = .ok (r, es)) (hr : 0 ≤ r)
    (hd : Derivation.AllReady ds) : Derivation.AllReady es := by
  unfold addDerivation at h
  split at h
  · cases h; exact hd
  · split at h
    · cases h
    · dsimp only at h
      split at h
      · cases h
      · split at h
        · cases h; omega
        · revert h
          cases h1 : Derivation.load { pubkey := (ECPoint.fromSec junk {} (ka.drop 2)).1 } va with
          | ub => intro h; cases h
          | ok d =>
            intro h
            cases h
            intro e he
            rcases List.mem_append.1 he with he | he
            · exact hd e he
            · rw [List.mem_singleton.1 he]
              exact load_ready h1

theorem inAdd_ready {junk : Bytes} {m m' : InMeta} {i : TxIn} {code : UInt8} {ka va : Bytes} {r : Int} (h : m.add junk i code ka va = .ok (r, m')) (hr : 0 ≤ r)
    (hd : Derivation.AllReady m.derivations) : Derivation.AllReady m'.derivations := by
  unfold InMeta.add at h
  split at h
  · split at h
    · cases h; exact hd
    · dsimp only at h
      split at h
      · cases h
      · split at h
        · cases h; exact hd
        · revert h
          cases (({} : Tx).fromStream { bytes := va.drop (dataPos va) }).1.hash with
          | ub => intro h; cases h
          | ok x =>
            rw [C.bind_ok]
            intro h
            split at h
            · cases h; exact hd
            · split at h
              · cases h; exact hd
              · cases h; exact hd
  split at h
  · split at h
    · cases h; exact hd
    · dsimp only at h
      split at h
      · cases h
      · cases h; exact hd
  split at h
  · split at h
    · cases h; exact hd
    · dsimp only at h
      repeat' split at h
      all_goals first | cases h; done | (cases h; exact hd)
  split at h
  · split at h
    · cases h; exact hd
    · dsimp only at h
      split at h
      · cases h
      · cases h; exact hd
  split at h
  · split at h
    · cases h; exact hd
    · dsimp only at h
      split at h
      · cases h
      · cases h; exact hd
  split at h
  · revert h
    cases h1 : addDerivation junk m.derivations ka va with
    | ub => intro h; cases h
    | ok x =>
      obtain ⟨r', ds⟩ := x
      intro h
      cases h
      exact addDerivation_ready h1 hr hd
  · cases h; exact hd

theorem outAdd_ready {junk : Bytes} {m m' : OutMeta} {code : UInt8} {ka va : Bytes} {r : Int} (h : m.add junk code ka va = .ok (r, m')) (hr : 0 ≤ r)
    (hd : Derivation.AllReady m.derivations) : Derivation.AllReady m'.derivations := by
  unfold OutMeta.add at h
  split at h
  · split at h
    · cases h; exact hd
    · dsimp only at h
      split at h
      · cases h
      · cases h; exact hd
  split at h
  · split at h
    · cases h; exact hd
    · dsimp only at h
      split at h
      · cases h
      · cases h; exact hd
  split at h
  · revert h
    cases h1 : addDerivation junk m.derivations ka va with
    | ub => intro h; cases h
    | ok x =>
      obtain ⟨r', ds⟩ := x
      intro h
      cases h
      exact addDerivation_ready h1 hr hd
  · cases h; exact hd

theorem mem_set_or {α : Type} {l : List α} {n : Nat} {a b : α} (h : b ∈ l.set n a) : b ∈ l ∨ b = a := by
  rcases List.mem_or_eq_of_mem_set h with h | h
  · exact Or.inl h
  · exact Or.inr h

/-- What `add` leaves alone. -/
structure Kept (p q : PSBT) : Prop where
  status : q.status = p.status
  pos : q.lastKeyPos = p.lastKeyPos
  tx : q.tx = p.tx

theorem add_sane {p q : PSBT} {junk : Bytes} {sec : UInt8} {k v : Script} {r : Int} (h : p.add junk sec k v = .ok (r, q)) (hr : 0 ≤ r) (hp : p.Sane) : q.Sane ∧ Kept p q := by
  unfold PSBT.add at h
  split at h
  · cases h; exact ⟨hp, rfl, rfl, rfl⟩
  · revert h
    cases k.ser with
    | ub => intro h; cases h
    | ok ka =>
    cases v.ser with
    | ub => intro h; cases h
    | ok va =>
    rw [C.bind_ok, C.bind_ok]
    cases peek ka (dataPos ka) with
    | ub => intro h; cases h
    | ok code =>
    rw [C.bind_ok]
    intro h
    split at h
    · split at h
      · rename_i m i hm hi
        revert h
        cases h1 : m.add junk i code ka va with
        | ub => intro h; cases h
        | ok x =>
          obtain ⟨r', m'⟩ := x
          intro h
          cases h
          refine ⟨⟨?_, hp.outs, fun x hx => ?_, hp.outReady⟩, rfl, rfl, rfl⟩
          · show (p.ins.set _ _).length = _
            rw [List.length_set]; exact hp.ins
          · rcases mem_set_or hx with hx | rfl
            · exact hp.inReady x hx
            · exact inAdd_ready h1 hr (hp.inReady m (List.mem_of_getElem? hm))
      · cases h
    · split at h
      · rename_i m hm
        revert h
        cases h1 : m.add junk code ka va with
        | ub => intro h; cases h
        | ok x =>
          obtain ⟨r', m'⟩ := x
          intro h
          cases h
          refine ⟨⟨hp.ins, ?_, hp.inReady, fun x hx => ?_⟩, rfl, rfl, rfl⟩
          · show (p.outs.set _ _).length = _
            rw [List.length_set]; exact hp.outs
          · rcases mem_set_or hx with hx | rfl
            · exact hp.outReady x hx
            · exact outAdd_ready h1 hr (hp.outReady m (List.mem_of_getElem? hm))
      · cases h

/-- The object may be destroyed, or (`e = false`) the transaction has not been read yet. -/
def Good (e : Bool) (p : PSBT) : Prop := p.Sane ∨ (e = false ∧ p.lastKeyPos ≤ 5)

/-- What is known of the result of a call. -/
def Res (e : Bool) (q : PSBT) : Prop := q.status = .failed ∨ q.status = .ub ∨ (Good e q ∧ (q.status = .done → 5 < q.lastKeyPos))

theorem sane_of {p q : PSBT} (h : p.Sane) (h1 : q.tx = p.tx) (h2 : q.ins = p.ins) (h3 : q.outs = p.outs) : q.Sane :=
  ⟨by rw [h1, h2]; exact h.ins, by rw [h1, h3]; exact h.outs, by rw [h2]; exact h.inReady, by rw [h3]; exact h.outReady⟩

theorem good_of {e : Bool} {p q : PSBT} (h : Good e p) (h1 : q.tx = p.tx) (h2 : q.ins = p.ins) (h3 : q.outs = p.outs) (h4 : q.lastKeyPos = p.lastKeyPos) : Good e q := by
  rcases h with h | ⟨h, h'⟩
  · exact Or.inl (sane_of h h1 h2 h3)
  · exact Or.inr ⟨h, by rw [h4]; exact h'⟩

theorem finishAll_res {e : Bool} {p : PSBT} (h : Good e p) (hs : p.status = .incomplete) (br : Nat) (s : PStream) : Res e (p.finishAll br s).1 := by
  unfold PSBT.finishAll
  split
  · rename_i hc
    refine Or.inr (Or.inr ⟨good_of h rfl rfl rfl rfl, fun _ => ?_⟩)
    show 5 < p.lastKeyPos
    by_contra hn
    have : p.sections = 0 := by unfold sections; rw [if_neg hn]
    rw [this] at hc
    exact absurd hc.2 (by decide)
  · refine Or.inr (Or.inr ⟨good_of h rfl rfl rfl rfl, fun c => ?_⟩)
    change p.status = .done at c
    rw [hs] at c
    cases c

/-- A round inside the sections: either the call ends with a failure, or the object is as good as before. -/
def RoundOk (x : (PSBT × Nat × PStream) × Bool) : Prop :=
  if x.2 then x.1.1.status = .failed ∨ x.1.1.status = .ub else x.1.1.Sane ∧ x.1.1.status = .incomplete ∧ 5 < x.1.1.lastKeyPos

theorem parseKey_kept (p : PSBT) (br : Nat) (s : PStream) : ∃ k n s', p.parseKey br s = ({ p with key := k }, n, s') := ⟨_, _, _, rfl⟩
theorem parseValue_kept (p : PSBT) (br : Nat) (s : PStream) : ∃ k n s', p.parseValue br s = ({ p with value := k }, n, s') := ⟨_, _, _, rfl⟩

theorem roundAdd_ok {p : PSBT} (hp : p.Sane) (hs : p.status = .incomplete) (hl : 5 < p.lastKeyPos) (junk : Bytes) (br : Nat) (s : PStream) : RoundOk (p.roundAdd junk br s) := by
  unfold roundAdd
  split
  · exact Or.inr rfl
  split
  · cases h : p.add junk p.sec p.key p.value with
    | ub => exact Or.inr rfl
    | ok x =>
      obtain ⟨r, q⟩ := x
      dsimp only
      split
      · exact Or.inl rfl
      · rename_i hr
        obtain ⟨h1, h2⟩ := add_sane h (by omega) hp
        exact ⟨sane_of h1 rfl rfl rfl, h2.status.trans hs, by show 5 < q.lastKeyPos + _; rw [h2.pos]; omega⟩
  · exact ⟨hp, hs, hl⟩

theorem roundRetry_ok {p : PSBT} (hp : p.Sane) (hs : p.status = .incomplete) (hl : 5 < p.lastKeyPos) (junk : Bytes) (br : Nat) (s : PStream) : RoundOk (p.roundRetry junk br s) := by
  unfold roundRetry
  split
  · exact Or.inr rfl
  split
  · exact Or.inl rfl
  have h1 : ∃ q n s', (if p.key.status = .incomplete then p.parseKey br s else (p, br, s)) = (q, n, s') ∧ q.Sane ∧ q.status = .incomplete ∧ 5 < q.lastKeyPos := by
    split
    · exact ⟨_, _, _, rfl, sane_of hp rfl rfl rfl, hs, hl⟩
    · exact ⟨_, _, _, rfl, hp, hs, hl⟩
  obtain ⟨q, n, s', e1, a1, a2, a3⟩ := h1
  rw [e1]
  dsimp only
  have h2 : ∃ q' n' s'', (if q.value.status = .incomplete then q.parseValue n s' else (q, n, s')) = (q', n', s'') ∧ q'.Sane ∧ q'.status = .incomplete ∧ 5 < q'.lastKeyPos := by
    split
    · exact ⟨_, _, _, rfl, sane_of a1 rfl rfl rfl, a2, a3⟩
    · exact ⟨_, _, _, rfl, a1, a2, a3⟩
  obtain ⟨q', n', s'', e2, b1, b2, b3⟩ := h2
  rw [e2]
  exact roundAdd_ok b1 b2 b3 _ _ _

theorem round_ok {p : PSBT} (hp : p.Sane) (hs : p.status = .incomplete) (hl : 5 < p.lastKeyPos) (junk : Bytes) (br : Nat) (s : PStream) : RoundOk (p.round junk br s) := by
  unfold round
  have h1 : ∃ q n s', (if p.key.status = .done ∧ p.value.status = .done then p.parseKey br s else (p, br, s)) = (q, n, s') ∧ q.Sane ∧ q.status = .incomplete ∧ 5 < q.lastKeyPos := by
    split
    · exact ⟨_, _, _, rfl, sane_of hp rfl rfl rfl, hs, hl⟩
    · exact ⟨_, _, _, rfl, hp, hs, hl⟩
  obtain ⟨q, n, s', e1, a1, a2, a3⟩ := h1
  rw [e1]
  dsimp only
  split
  · exact ⟨sane_of a1 rfl rfl rfl, a2, by show 5 < q.lastKeyPos + 1; omega⟩
  have h2 : ∃ q' n' s'', (if q.key.status = .done then q.parseValue n s' else (q, n, s')) = (q', n', s'') ∧ q'.Sane ∧ q'.status = .incomplete ∧ 5 < q'.lastKeyPos := by
    split
    · exact ⟨_, _, _, rfl, sane_of a1 rfl rfl rfl, a2, a3⟩
    · exact ⟨_, _, _, rfl, a1, a2, a3⟩
  obtain ⟨q', n', s'', e2, b1, b2, b3⟩ := h2
  rw [e2]
  exact roundRetry_ok b1 b2 b3 _ _ _

theorem loop_res (junk : Nat → Bytes) (e : Bool) : ∀ (fuel : Nat) (p : PSBT) (br : Nat) (s : PStream), Good e p → p.status = .incomplete →
    Res e (loop junk fuel p br s).1 := by
  intro fuel
  induction fuel with
  | zero => intro p br s h hs; exact finishAll_res h hs br s
  | succ fuel ih =>
    intro p br s h hs
    rw [loop]
    split
    · rename_i hc
      have hl : 5 < p.lastKeyPos := by
        by_contra hn
        have : p.sections = 0 := by unfold sections; rw [if_neg hn]
        rw [this] at hc
        exact absurd hc.2 (UInt8.not_lt_zero)
      have hp : p.Sane := by
        rcases h with h | ⟨-, h⟩
        · exact h
        · omega
      have hr := round_ok hp hs hl (junk p.lastKeyPos) br s
      revert hr
      generalize p.round (junk p.lastKeyPos) br s = x
      obtain ⟨⟨q, n, s'⟩, b⟩ := x
      intro hr
      cases b with
      | true =>
        rcases hr with hr | hr
        · exact Or.inl hr
        · exact Or.inr (Or.inl hr)
      | false => exact ih q n s' (Or.inl hr.1) hr.2.1
    · exact finishAll_res h hs br s

theorem readTx_good {e : Bool} {p q : PSBT} (hr : p.readTx = .ok q) : q.status = .failed ∨ (Good e q ∧ q.status = p.status) := by
  unfold readTx at hr
  revert hr
  cases p.key.ser with
  | ub => intro hr; cases hr
  | ok ka =>
    rw [C.bind_ok]
    intro hr
    split at hr
    · cases hr; exact Or.inl rfl
    · revert hr
      cases p.value.ser with
      | ub => intro hr; cases hr
      | ok va =>
        rw [C.bind_ok]
        dsimp only
        intro hr
        split at hr
        · cases hr
        · split at hr
          · cases hr; exact Or.inl rfl
          · cases hr
            refine Or.inr ⟨Or.inl ⟨?_, ?_, fun m hm => ?_, fun m hm => ?_⟩, rfl⟩
            · exact List.length_replicate
            · exact List.length_replicate
            · rw [List.eq_of_mem_replicate hm]; intro d hd; cases hd
            · rw [List.eq_of_mem_replicate hm]; intro d hd; cases hd

theorem afterGlobal_res (junk : Nat → Bytes) {e : Bool} {p : PSBT} (h : Good e p) (hs : p.status = .incomplete) (br : Nat) (s : PStream) :
    Res e (afterGlobal junk p br s).1 := by
  unfold afterGlobal
  split
  · cases hr : p.readTx with
    | ub => exact Or.inr (Or.inl rfl)
    | ok q =>
      dsimp only
      split
      · exact Or.inl rfl
      · rename_i hq
        rcases readTx_good (e := e) hr with hf | ⟨hg, hst⟩
        · exact absurd hf hq
        · exact loop_res junk e _ q br s hg (hst.trans hs)
  · exact loop_res junk e _ p br s h hs

theorem globalValue_res (junk : Nat → Bytes) {e : Bool} {p : PSBT} (h : Good e p) (hs : p.status = .incomplete) (br : Nat) (s : PStream) :
    Res e (globalValue junk p br s).1 := by
  unfold globalValue
  have h1 : ∃ q n s', (if s.avail ∧ p.value.status = .incomplete then p.parseValue br s else (p, br, s)) = (q, n, s') ∧ Good e q ∧ q.status = .incomplete := by
    split
    · exact ⟨_, _, _, rfl, good_of h rfl rfl rfl rfl, hs⟩
    · exact ⟨_, _, _, rfl, h, hs⟩
  obtain ⟨q, n, s', e1, a1, a2⟩ := h1
  rw [e1]
  dsimp only
  split
  · exact Or.inr (Or.inl rfl)
  split
  · exact Or.inl rfl
  · exact afterGlobal_res junk a1 a2 _ _

theorem globalKey_res (junk : Nat → Bytes) {e : Bool} {p : PSBT} (h : Good e p) (hs : p.status = .incomplete) (br : Nat) (s : PStream) :
    Res e (globalKey junk p br s).1 := by
  unfold globalKey
  have h1 : ∃ q n s', (if s.avail ∧ p.key.status = .incomplete then p.parseKey br s else (p, br, s)) = (q, n, s') ∧ Good e q ∧ q.status = .incomplete := by
    split
    · exact ⟨_, _, _, rfl, good_of h rfl rfl rfl rfl, hs⟩
    · exact ⟨_, _, _, rfl, h, hs⟩
  obtain ⟨q, n, s', e1, a1, a2⟩ := h1
  rw [e1]
  dsimp only
  split
  · exact Or.inr (Or.inl rfl)
  split
  · split
    · exact Or.inr (Or.inl rfl)
    · exact Or.inl rfl
  · exact globalValue_res junk a1 a2 _ _

theorem readGlobal_res (junk : Nat → Bytes) {e : Bool} {p : PSBT} (h : Good e p) (hs : p.status = .incomplete) (br : Nat) (s : PStream) :
    Res e (readGlobal junk p br s).1 := by
  unfold readGlobal
  split
  · obtain ⟨k, n, s1, e1⟩ := parseKey_kept p br s
    obtain ⟨v, n2, s2, e2⟩ := parseValue_kept { p with key := k } n s1
    rw [e1]
    dsimp only
    rw [e2]
    exact globalKey_res junk (p := { p with key := k, value := v }) (good_of h rfl rfl rfl rfl) hs _ _
  · exact globalKey_res junk h hs _ _

/-- One call, for any bytes, on an object that is being filled (`e = true`: or that is new). -/
theorem fromStream_res (junk : Nat → Bytes) {e : Bool} {p : PSBT} (h : p.status = .incomplete → Good e p)
    (hd : p.status = .done → e = true → p.tx.txIns = [] ∧ p.tx.txOuts = []) (s : PStream) : Res e (fromStream junk p s).1 := by
  unfold fromStream
  split
  · rename_i hc
    rcases hc with hc | hc
    · exact Or.inl hc
    · exact Or.inr (Or.inl hc)
  rename_i hc
  split
  · exact Or.inr (Or.inl rfl)
  have hs : p.start.status = .incomplete := rfl
  have hg : Good e p.start := by
    unfold start
    by_cases hst : p.status = .done
    · rw [if_pos hst]
      cases e with
      | false => exact Or.inr ⟨rfl, Nat.le_refl 5⟩
      | true =>
        obtain ⟨h1, h2⟩ := hd hst rfl
        refine Or.inl ⟨?_, ?_, fun m hm => (by cases hm), fun m hm => (by cases hm)⟩
        · show 0 = p.tx.txIns.length
          rw [h1]; rfl
        · show 0 = p.tx.txOuts.length
          rw [h2]; rfl
    · rw [if_neg hst]
      have hi : p.status = .incomplete := by
        revert hc hst
        cases p.status <;> simp
      exact good_of (h hi) rfl rfl rfl rfl
  dsimp only
  split
  · exact Or.inl rfl
  · exact readGlobal_res junk hg hs _ _

end PSBT
end UB
