import Verif.Lemmas.HeapTxParseProgram
import Verif.Props.HeapTxProgram
import Verif.Props.ParseSafe

/-! # C85: parsing inputs, outputs and transactions on a heap

Programs that construct, copy, assign, extend and destroy inputs, outputs and transactions and parse into them, piece by piece or in one
go, with any number of variables and statements, on a heap where using memory that is not owned is an error. -/

namespace UB
open Heap Spec

/-- The variable a statement constructs, changes or destroys. -/
def POp.target : POp → Nat
  | .op o => o.target
  | .parse x _ => x

theorem prun_ok : ∀ (ops : List POp) {W : TWorld} {vs : TVals} {ow : Nat → Finset Nat} {L : Finset Nat} (_ : PInv W vs ow L) (_ : W.heap.Generous)
    (_ : PAllAllowed ops vs),
    ∃ W' ow' L', W.prun ops = .ok (W', vs.pouts ops) ∧ PInv W' (vs.prun ops) ow' L' ∧ W'.heap.denies = W.heap.denies ∧
      L ⊆ L' ∧ L'.card ≤ L.card + pallLosses ops vs := by
  intro ops
  induction ops with
  | nil => intro W vs ow L I _ _; exact ⟨W, ow, L, rfl, I, rfl, fun _ h => h, Nat.le_refl _⟩
  | cons op ops ih =>
    intro W vs ow L I g ha
    obtain ⟨ok, ha'⟩ := ha
    obtain ⟨W1, ow1, E, hs, I1, dj, hd1, hE⟩ := pstep_ok I g op ok
    have g1 : W1.heap.Generous := by
      unfold Heap.Generous
      rw [hd1]
      exact g
    obtain ⟨W', ow', L', hr, I', hd, hsub, hn⟩ := ih I1 g1 ha'
    refine ⟨W', ow', L', ?_, I', hd.trans hd1, fun q hq => hsub (Finset.mem_union_left _ hq), ?_⟩
    · rw [TWorld.prun, hs, C.bind_ok]
      dsimp only
      rw [hr, C.bind_ok]
      rfl
    · rw [Finset.card_union_of_disjoint dj] at hn
      rw [pallLosses]
      omega

theorem TVals.prun_append : ∀ (ops1 ops2 : List POp) (vs : TVals), TVals.prun (ops1 ++ ops2) vs = TVals.prun ops2 (TVals.prun ops1 vs) := by
  intro ops1
  induction ops1 with
  | nil => intro ops2 vs; rfl
  | cons op ops1 ih => intro ops2 vs; exact ih ops2 _

theorem pallAllowed_append : ∀ {ops1 ops2 : List POp} {vs : TVals}, PAllAllowed (ops1 ++ ops2) vs ↔ PAllAllowed ops1 vs ∧ PAllAllowed ops2 (TVals.prun ops1 vs) := by
  intro ops1
  induction ops1 with
  | nil => intro ops2 vs; exact ⟨fun h => ⟨trivial, h⟩, fun h => h.2⟩
  | cons op ops1 ih =>
    intro ops2 vs
    constructor
    · rintro ⟨h1, h2⟩
      obtain ⟨h3, h4⟩ := ih.1 h2
      exact ⟨⟨h1, h3⟩, h4⟩
    · rintro ⟨⟨h1, h2⟩, h3⟩
      exact ⟨h1, ih.2 ⟨h2, h3⟩⟩

theorem pallLosses_append : ∀ (ops1 ops2 : List POp) (vs : TVals), pallLosses (ops1 ++ ops2) vs = pallLosses ops1 vs + pallLosses ops2 (TVals.prun ops1 vs) := by
  intro ops1
  induction ops1 with
  | nil => intro ops2 vs; simp [pallLosses, TVals.prun]
  | cons op ops1 ih =>
    intro ops2 vs
    simp only [List.cons_append, pallLosses, TVals.prun, ih]
    omega

theorem TVals.pstep_ne {vs : TVals} {op : POp} {y : Nat} (h : y ≠ op.target) : vs.pstep op y = vs y := by
  cases op with
  | op o => exact TVals.step_ne h
  | parse x s =>
    cases hv : vs x with
    | none => simp only [TVals.pstep, hv]
    | some v => simp only [TVals.pstep, hv]; exact TVals.put_ne h

theorem TVals.prun_ne : ∀ (ops : List POp) {vs : TVals} {y : Nat}, (∀ op ∈ ops, op.target ≠ y) → TVals.prun ops vs y = vs y := by
  intro ops
  induction ops with
  | nil => intro vs y _; rfl
  | cons op ops ih =>
    intro vs y h
    rw [TVals.prun, ih fun o ho => h o (List.mem_cons_of_mem _ ho)]
    exact TVals.pstep_ne (Ne.symm (h op List.mem_cons_self))

/-- A program of allowed statements, from the start. -/
theorem pstart_ok (denies : Nat → Nat → Bool) (g : (TWorld.init denies).heap.Generous) (ops : List POp) (ha : PAllAllowed ops fun _ => none) :
    ∃ W ow L, (TWorld.init denies).prun ops = .ok (W, TVals.pouts ops fun _ => none) ∧ PInv W (TVals.prun ops fun _ => none) ow L ∧
      L.card ≤ pallLosses ops fun _ => none := by
  obtain ⟨W, ow, L, h1, h2, -, -, h4⟩ := prun_ok ops (PInv.init denies) g ha
  exact ⟨W, ow, L, h1, h2, by simpa using h4⟩

/-- C85: every program of allowed statements, in which any bytes may have been parsed in any pieces, runs without memory error. Every
call of `parse` returns, leaves in the stream and reports what it does where variables are values; and what can be read from a
complete variable at the end is what it holds there. -/
theorem C85_values (denies : Nat → Nat → Bool) (g : (TWorld.init denies).heap.Generous) (ops : List POp) (ha : PAllAllowed ops fun _ => none) :
    ∃ W, (TWorld.init denies).prun ops = .ok (W, TVals.pouts ops fun _ => none) ∧ ∀ x,
      (TVals.prun ops (fun _ => none) x = none → W.objs x = none) ∧
        ∀ v, TVals.prun ops (fun _ => none) x = some v → v.status = .done → W.view x = .ok v.view := by
  obtain ⟨W, ow, L, h1, I, -⟩ := pstart_ok denies g ops ha
  exact ⟨W, h1, fun x => ⟨fun h => (I.toTMem.none h).1, fun v h hs => I.toTMem.view h ((I.sound x v h).done hs)⟩⟩

/-- C85: nothing parsed into other variables, nor what happens to them, changes what can be read from a variable. -/
theorem C85_apart (denies : Nat → Nat → Bool) (g : (TWorld.init denies).heap.Generous) (ops1 ops2 : List POp)
    (ha : PAllAllowed (ops1 ++ ops2) fun _ => none) (x : Nat) (hx : ∀ op ∈ ops2, op.target ≠ x) (v : TVal)
    (hv : TVals.prun ops1 (fun _ => none) x = some v) (hs : v.status = .done) :
    ∃ W1 outs1 W outs, (TWorld.init denies).prun ops1 = .ok (W1, outs1) ∧ (TWorld.init denies).prun (ops1 ++ ops2) = .ok (W, outs) ∧
      W.view x = W1.view x ∧ W1.view x = .ok v.view := by
  obtain ⟨W, ow, L, h1, I, -⟩ := pstart_ok denies g _ ha
  obtain ⟨W1, ow1, L1, h2, I1, -⟩ := pstart_ok denies g _ (pallAllowed_append.1 ha).1
  have e1 := I1.toTMem.view hv ((I1.sound x v hv).done hs)
  have hv2 : TVals.prun (ops1 ++ ops2) (fun _ => none) x = some v := by
    rw [TVals.prun_append, TVals.prun_ne ops2 hx, hv]
  have e2 := I.toTMem.view hv2 ((I.sound x v hv2).done hs)
  exact ⟨W1, _, W, _, h2, h1, e2.trans e1.symm, e1⟩

/-- C85: the memory in use at the end of a program: the blocks of its variables, each with one owner, and blocks without elements: at most
one for every transaction without inputs or outputs copied or assigned, and for every call of `parse` one for each count that is 0. -/
theorem C85_losses (denies : Nat → Nat → Bool) (g : (TWorld.init denies).heap.Generous) (ops : List POp) (ha : PAllAllowed ops fun _ => none) :
    ∃ W outs, ∃ L : Finset Nat, ∃ ow : Nat → Finset Nat, (TWorld.init denies).prun ops = .ok (W, outs) ∧ L.card ≤ pallLosses ops (fun _ => none) ∧
      (∀ q, W.heap.blocks q ≠ none ↔ (∃ x, q ∈ ow x) ∨ q ∈ L) ∧ (∀ x y, x ≠ y → Disjoint (ow x) (ow y)) ∧ (∀ x, Disjoint (ow x) L) ∧
      ∀ x, W.objs x = none → ow x = ∅ := by
  obtain ⟨W, ow, L, h1, I, h4⟩ := pstart_ok denies g ops ha
  refine ⟨W, _, L, ow, h1, h4, I.live, I.sep, I.lost, fun x hx => ?_⟩
  rcases I.toTMem.cases0 x with ⟨-, -, h3⟩ | ⟨o, u, e, h1, -⟩ | ⟨o, u, h1, -⟩ | ⟨o, u, e, h1, -⟩
  · exact h3
  all_goals rw [hx] at h1; cases h1

/-- C85: once all variables are gone, only those blocks are left. -/
theorem C85_rest (denies : Nat → Nat → Bool) (g : (TWorld.init denies).heap.Generous) (ops : List POp) (ha : PAllAllowed ops fun _ => none)
    (hend : ∀ x, TVals.prun ops (fun _ => none) x = none) :
    ∃ W outs, ∃ L : Finset Nat, (TWorld.init denies).prun ops = .ok (W, outs) ∧ L.card ≤ pallLosses ops (fun _ => none) ∧
      ∀ q, W.heap.blocks q ≠ none ↔ q ∈ L := by
  obtain ⟨W, ow, L, h1, I, h4⟩ := pstart_ok denies g ops ha
  refine ⟨W, _, L, h1, h4, fun q => (I.live q).trans ⟨fun h => ?_, Or.inr⟩⟩
  rcases h with ⟨x, hx⟩ | h
  · rw [(I.toTMem.none (hend x)).2] at hx
    simp at hx
  · exact h

/-! ### One transaction, any bytes -/

/-- What is in a transaction after all the calls. -/
def Spec.fed (v : Tx) : List PStream → Tx
  | [] => v
  | s :: ss => fed (v.fromStream s).1 ss

/-- Counts of 0 met in the calls. -/
def Spec.fedZeros (v : Tx) : List PStream → Nat
  | [] => 0
  | s :: ss => (TVal.tx (v.fromStream s).1 []).hollow + fedZeros (v.fromStream s).1 ss

/-- `Tx t; for(s in ss) s.parse(&t);` and the end of the scope. -/
def feedTx (ss : List PStream) : List POp := .op (.newTx 0) :: (ss.map (.parse 0) ++ [.op (.destroy 0)])

theorem fed_ub : ∀ (ss : List PStream) {v : Tx}, v.status = .ub → (fed v ss).status = .ub := by
  intro ss
  induction ss with
  | nil => intro v h; exact h
  | cons s ss ih =>
    intro v h
    rw [fed]
    apply ih
    unfold Tx.fromStream
    rw [if_pos (Or.inr h)]
    exact h

theorem not_spoilt_fresh (v : Tx) : ¬ (TVal.tx v (v.txIns.map holds)).Spoilt := by
  rintro ⟨i, hi, h1, h2⟩
  rw [List.mem_iff_getElem?] at hi
  obtain ⟨k, hk⟩ := hi
  rw [List.getElem?_zip_eq_some, List.getElem?_map] at hk
  obtain ⟨k1, k2⟩ := hk
  rw [k1] at k2
  injection k2 with k2
  rw [h2] at k2
  simp [holds, h1] at k2

theorem feed_allowed : ∀ (ss : List PStream) {vs : TVals} {v : Tx}, vs 0 = some (.tx v (v.txIns.map holds)) → (∀ y, y ≠ 0 → vs y = none) →
    (fed v ss).status ≠ .ub →
    PAllAllowed (ss.map (.parse 0) ++ [.op (.destroy 0)]) vs ∧ (∀ y, TVals.prun (ss.map (.parse 0) ++ [.op (.destroy 0)]) vs y = none) ∧
      pallLosses (ss.map (.parse 0) ++ [.op (.destroy 0)]) vs = fedZeros v ss := by
  intro ss
  induction ss with
  | nil =>
    intro vs v h0 hn hs
    refine ⟨⟨⟨fun u hu => ?_, trivial⟩, trivial⟩, fun y => ?_, rfl⟩
    · rw [h0] at hu
      injection hu with hu
      rw [← hu]
      exact not_spoilt_fresh v
    · show TVals.put vs 0 none y = none
      by_cases hy : y = 0
      · rw [hy, TVals.put_eq]
      · rw [TVals.put_ne hy]; exact hn y hy
  | cons s ss ih =>
    intro vs v h0 hn hs
    rw [fed] at hs
    have e : vs.pstep (.parse 0 s) = vs.put 0 (some (.tx (v.fromStream s).1 ((v.fromStream s).1.txIns.map holds))) := by
      simp only [TVals.pstep, h0]
      rfl
    obtain ⟨i1, i2, i3⟩ := ih (vs := vs.pstep (.parse 0 s)) (v := (v.fromStream s).1) (by rw [e, TVals.put_eq])
      (fun y hy => by rw [e, TVals.put_ne hy]; exact hn y hy) hs
    refine ⟨⟨fun u hu => ?_, i1⟩, i2, ?_⟩
    · rw [h0] at hu
      injection hu with hu
      rw [← hu]
      refine ⟨fun c => hs (fed_ub ss c), fun t e he => ?_⟩
      exact not_spoilt_fresh v
    · have e2 : pallLosses (List.map (POp.parse 0) (s :: ss) ++ [.op (.destroy 0)]) vs = plosses vs (.parse 0 s) +
          pallLosses (List.map (POp.parse 0) ss ++ [.op (.destroy 0)]) (vs.pstep (.parse 0 s)) := rfl
      rw [e2, i3]
      simp only [plosses, h0]
      rfl

/-- C85: a transaction is constructed, any bytes are parsed into it in any pieces, and it is destroyed: unless the parser has undefined
behaviour on the bytes themselves (C81), no call touches memory that is not its own, and nothing is left except at most one block
without elements for every count of 0 met. -/
theorem C85_feed (denies : Nat → Nat → Bool) (g : (TWorld.init denies).heap.Generous) (ss : List PStream) (hs : (fed {} ss).status ≠ .ub) :
    ∃ W outs, ∃ L : Finset Nat, (TWorld.init denies).prun (feedTx ss) = .ok (W, outs) ∧ L.card ≤ fedZeros {} ss ∧
      (∀ q, W.heap.blocks q ≠ none ↔ q ∈ L) ∧ ∀ x, W.objs x = none := by
  have h0 : TVals.pstep (fun _ => none) (.op (.newTx 0)) = TVals.put (fun _ => none) 0 (some (.tx {} (({} : Tx).txIns.map holds))) := rfl
  obtain ⟨i1, i2, i3⟩ := feed_allowed ss (vs := TVals.pstep (fun _ => none) (.op (.newTx 0))) (v := {}) (by rw [h0, TVals.put_eq])
    (fun y hy => by rw [h0, TVals.put_ne hy]) hs
  obtain ⟨W, ow, L, h1, I, h4⟩ := pstart_ok denies g (feedTx ss) ⟨⟨trivial, trivial⟩, i1⟩
  refine ⟨W, _, L, h1, ?_, fun q => (I.live q).trans ⟨fun h => ?_, Or.inr⟩, fun x => (I.toTMem.none (i2 x)).1⟩
  · have : pallLosses (feedTx ss) (fun _ => none) = 0 + pallLosses (ss.map (.parse 0) ++ [.op (.destroy 0)]) (TVals.pstep (fun _ => none) (.op (.newTx 0))) := rfl
    rw [i3] at this
    omega
  · rcases h with ⟨x, hx⟩ | h
    · rw [(I.toTMem.none (i2 x)).2] at hx
      simp at hx
    · exact h

/-- C85: any bytes that can be a transaction, or the beginning of one, and all bytes in which no `ff` has four bytes behind it, parsed in one
go: no memory error, and the most that is left are two blocks without elements. -/
theorem C85_bytes (denies : Nat → Nat → Bool) (g : (TWorld.init denies).heap.Generous) (bs : Bytes) (hw : readTx bs ≠ .bad ∨ ¬ Wide bs) :
    ∃ W outs, ∃ L : Finset Nat, (TWorld.init denies).prun (feedTx [.of bs]) = .ok (W, outs) ∧ L.card ≤ 2 ∧ (∀ q, W.heap.blocks q ≠ none ↔ q ∈ L) ∧
      ∀ x, W.objs x = none := by
  obtain ⟨W, outs, L, h1, h2, h3, h4⟩ := C85_feed denies g [.of bs] (fun c => by
    obtain ⟨c1, c2⟩ := C81_tx {} rfl bs c
    rcases hw with hw | hw
    · exact hw c1
    · exact hw c2)
  refine ⟨W, outs, L, h1, Nat.le_trans h2 ?_, h3, h4⟩
  simp only [fedZeros, TVal.hollow]
  split <;> split <;> omega

/-- The counts in the bytes of a transaction. -/
theorem readTx_counts {hdr q : Bytes} {sw : Bool} {n v : Nat} (hh : Hdr hdr sw n v) {x : Transaction} {r : Bytes} (h : readTx (hdr ++ q) = .ok x r) :
    ∃ is o r' os r2, readMany readIn n q = .ok is (o :: r') ∧ readMany readOut o.toNat r' = .ok os r2 ∧ x.ins.length = n ∧ x.outs = os ∧ os.length = o.toNat := by
  rw [hh.readTx] at h
  unfold readAfterCount at h
  cases e1 : readMany readIn n q with
  | more => rw [e1] at h; cases h
  | bad => rw [e1] at h; cases h
  | ok is r1 =>
    rw [e1] at h
    cases r1 with
    | nil => cases h
    | cons o r' =>
      simp only [readAfterIns] at h
      cases e2 : readMany readOut o.toNat r' with
      | more => rw [e2] at h; cases h
      | bad => rw [e2] at h; cases h
      | ok os r2 =>
        rw [e2] at h
        have l1 : is.length = n := ((codecMany codecIn n).sound _ _ _ e1).2.1
        have l2 : os.length = o.toNat := ((codecMany codecOut _).sound _ _ _ e2).2.1
        refine ⟨is, o, r', os, r2, rfl, e2, ?_⟩
        simp only [readTail] at h
        have lk : ∀ {v : Nat} {is' : List In} {p : Bytes}, readLocktime v is' os p = .ok x r → x.ins = is' ∧ x.outs = os := by
          intro v is' p hp
          unfold readLocktime at hp
          split at hp
          · cases hp
          · injection hp with hp
            rw [← hp]
            exact ⟨rfl, rfl⟩
        split at h
        · cases e3 : readMany readWitness is.length r2 with
          | more => rw [e3] at h; cases h
          | bad => rw [e3] at h; cases h
          | ok ws r3 =>
            rw [e3] at h
            obtain ⟨k1, k2⟩ := lk h
            have l3 : ws.length = is.length := ((codecMany codecWitness _).sound _ _ _ e3).2.1
            exact ⟨by rw [k1, withWitnesses, List.length_zipWith, l3, Nat.min_self, l1], k2, l2⟩
        · obtain ⟨k1, k2⟩ := lk h
          exact ⟨by rw [k1, l1], k2, l2⟩

/-- In the middle of a transaction with inputs and outputs no count of 0 has been read. -/
theorem Tx.Mid.full {t : Tx} {p c : Bytes} (m : t.Mid p) {x : Transaction} {r : Bytes} (h : readTx (p ++ c) = .ok x r) (hi : x.ins ≠ []) (ho : x.outs ≠ [])
    (e : List Bool) : (TVal.tx t e).hollow = 0 := by
  have hpl := m.parsed
  rcases m.shape with ⟨h1, h2, h3, -⟩ | ⟨hdr, sw, n, q, hh, hp, hf, hn, hb⟩
  · have off : t.outOffset = 5 + 2 * t.segwitFlag := by unfold Tx.outOffset; rw [h2]; rfl
    have hb : t.bytesParsed ≤ 6 ∧ t.bytesParsed ≤ t.outOffset := by
      rcases h1 with ⟨g1, g2⟩ | ⟨vb, g1, g2, g3⟩
      · omega
      · have : p.length ≤ 6 := by rcases g2 with rfl | rfl <;> simp [g1]
        omega
    simp only [TVal.hollow]
    rw [if_neg (by omega), if_neg (by omega)]
  · rw [hp, List.append_assoc] at h
    obtain ⟨is, o, r', os, r2, e1, e2, e3, e4, e5⟩ := readTx_counts hh h
    have hni : t.txIns ≠ [] := by
      intro c
      rw [c, List.length_nil, ← e3] at hn
      exact hi (List.length_eq_zero_iff.1 hn.symm)
    simp only [TVal.hollow]
    rw [if_neg (fun c => hni c.1), if_neg]
    rintro ⟨g1, g2⟩
    have hl := hh.length
    have off : t.outOffset = hdr.length + (t.txIns.map (·.length)).sum := by
      unfold Tx.outOffset
      rw [hl, hf]
    rw [hpl, hp, List.length_append, off] at g2
    rcases hb with ⟨b1, b2, b3, b4⟩ | ⟨is', b1, b2, b3, b4⟩ | ⟨is', o', r0, b1, b2, b3, b4, b5, b6, _⟩ | ⟨is', o', r0, os', r2', l, b1, b2, b3, b4, b5⟩
    · have := seqMid_ins _ _ b2
      omega
    · have := Tx.ins_len b1 (List.Forall₂.imp (fun _ _ h => h.2.1) b2)
      rw [List.length_nil] at this
      omega
    · have k := Tx.readMany_mono codecIn c b1
      rw [e1] at k
      injection k with k1 k2
      injection k2 with k2 k3
      rw [g1, List.length_nil, ← k2, ← e5] at b3
      exact ho (by rw [e4]; exact List.length_eq_zero_iff.1 b3.symm)
    · have k := Tx.readMany_mono codecIn c b1
      rw [e1] at k
      injection k with k1 k2
      injection k2 with k2 k3
      have l2 : os'.length = o'.toNat := ((codecMany codecOut _).sound _ _ _ b2).2.1
      have l3 := b3.1.length_eq
      rw [g1, List.length_nil, l2, ← k2, ← e5] at l3
      exact ho (by rw [e4]; exact List.length_eq_zero_iff.1 l3.symm)

theorem fed_pieces {x : Transaction} {r : Bytes} (hi : x.ins ≠ []) (ho : x.outs ≠ []) : ∀ (cs : List Bytes) (t : Tx) (p : Bytes), t.Ready p → cs ≠ [] →
    (∀ k, k + 1 < cs.length → readTx (p ++ (cs.take (k + 1)).flatten) = .more ∧ ¬ Fragile (p ++ (cs.take (k + 1)).flatten)) →
    readTx (p ++ cs.flatten) = .ok x r →
    (fed t (cs.map .of)).status = .done ∧ (fed t (cs.map .of)).Holds x ∧ fedZeros t (cs.map .of) = 0 := by
  intro cs
  induction cs with
  | nil => intro t p _ h; exact absurd rfl h
  | cons c cs ih =>
    intro t p hr _ hc hx
    have hf := Tx.feed t p c hr
    unfold Tx.Out at hf
    simp only [List.map_cons, fed, fedZeros]
    by_cases h0 : cs = []
    · subst h0
      rw [List.flatten_cons, List.flatten_nil, List.append_nil] at hx
      rw [hx] at hf
      obtain ⟨f1, f2, -, -⟩ := hf
      refine ⟨f1, f2, ?_⟩
      simp only [List.map_nil, fedZeros, TVal.hollow]
      rw [if_neg, if_neg]
      · rintro ⟨g1, -⟩
        have := f2.outs.length_eq
        rw [g1] at this
        exact ho (List.length_eq_zero_iff.1 this.symm)
      · rintro ⟨g1, -⟩
        have := f2.ins.length_eq
        rw [g1] at this
        exact hi (List.length_eq_zero_iff.1 this.symm)
    · have hc0 := hc 0 (by simp; exact List.length_pos_iff.2 h0)
      simp only [Nat.zero_add, List.take_succ_cons, List.take_zero, List.flatten_cons, List.flatten_nil, List.append_nil] at hc0
      rw [hc0.1] at hf
      rcases hf with ⟨f1, f2, -, -⟩ | ⟨f1, -⟩
      · have hx' : readTx (p ++ c ++ cs.flatten) = .ok x r := by rw [List.append_assoc]; exact hx
        obtain ⟨i1, i2, i3⟩ := ih (t.fromStream (.of c)).1 (p ++ c) (Or.inr f2) h0 (fun k hk => by
          have := hc (k + 1) (by simp; omega)
          rw [List.take_succ_cons, List.flatten_cons, ← List.append_assoc] at this
          exact this) hx'
        exact ⟨i1, i2, by rw [i3, Tx.Mid.full f2 hx' hi ho]⟩
      · exact absurd f1 hc0.2

/-- C85: a transaction with inputs and outputs, parsed in pieces of any sizes which do not end where C15 fails: the calls succeed, and once
the variable is gone all memory has been given back. -/
theorem C85_pieces (denies : Nat → Nat → Bool) (g : (TWorld.init denies).heap.Generous) (cs : List Bytes) (x : Transaction) (r : Bytes)
    (hx : readTx cs.flatten = .ok x r) (hi : x.ins ≠ []) (ho : x.outs ≠ [])
    (hc : ∀ k, k + 1 < cs.length → readTx (cs.take (k + 1)).flatten = .more ∧ ¬ Fragile (cs.take (k + 1)).flatten) :
    ∃ W outs, (TWorld.init denies).prun (feedTx (cs.map .of)) = .ok (W, outs) ∧ (fed {} (cs.map .of)).Holds x ∧ (∀ q, W.heap.blocks q = none) ∧
      ∀ x, W.objs x = none := by
  have h0 : cs ≠ [] := by rintro rfl; cases hx
  obtain ⟨f1, f2, f3⟩ := fed_pieces hi ho cs {} [] (Or.inl ⟨rfl, rfl⟩) h0 hc hx
  obtain ⟨W, outs, L, h1, h2, h3, h4⟩ := C85_feed denies g (cs.map .of) (by rw [f1]; simp)
  refine ⟨W, outs, h1, f2, fun q => ?_, h4⟩
  rw [f3] at h2
  have hL : L = ∅ := Finset.card_eq_zero.1 (by omega)
  by_contra hc
  have := (h3 q).1 hc
  rw [hL] at this
  simp at this

/-! ### The hypotheses are met -/

/-- Variables that must be complete. -/
def TOp.needs : TOp → List Nat
  | .copy _ y => [y]
  | .assign x y | .addInput x y | .addOutput x y => [x, y]
  | .onIn x _ | .onInput x _ _ => [x]
  | _ => []

def pcheckOp (vs : TVals) : POp → Bool
  | .op o => (vs o.target).all (fun v => match o with
      | .assign _ _ | .addInput _ _ | .destroy _ => TVal.soundB v
      | _ => true) && o.needs.all fun x => (vs x).all fun v => decide (v.status = .done)
  | .parse x s => (vs x).all fun v => decide ((v.parse s).status ≠ .ub) && TVal.soundB v

/-- A check that a program on the variables below `n` is allowed. -/
def pcheck (n : Nat) : List POp → TVals → Bool
  | [], _ => true
  | op :: ops, vs => decide (op.target < n) && pcheckOp vs op && pcheck n ops (vs.pstep op)

theorem pcheck_sound {n : Nat} : ∀ {ops : List POp} {vs : TVals}, (∀ x, n ≤ x → vs x = none) → pcheck n ops vs = true → PAllAllowed ops vs := by
  intro ops
  induction ops with
  | nil => intro vs _ _; trivial
  | cons op ops ih =>
    intro vs h0 h
    rw [pcheck, Bool.and_eq_true, Bool.and_eq_true, decide_eq_true_eq] at h
    obtain ⟨⟨h2, h3⟩, h4⟩ := h
    refine ⟨?_, ih (fun x hx => ?_) h4⟩
    · cases op with
      | parse x s =>
        intro v hv
        rw [pcheckOp, hv, Option.all_some, Bool.and_eq_true, decide_eq_true_eq] at h3
        exact ⟨h3.1, fun t e he => TVal.soundB_sound h3.2⟩
      | op o =>
        rw [pcheckOp, Bool.and_eq_true] at h3
        obtain ⟨h3, h5⟩ := h3
        have need : ∀ y ∈ o.needs, ∀ v, vs y = some v → v.status = .done := by
          intro y hy v hv
          have := List.all_eq_true.1 h5 y hy
          rw [hv, Option.all_some, decide_eq_true_eq] at this
          exact this
        refine ⟨?_, ?_⟩
        · cases o <;> simp only [TAllowed, TOp.target] at h3 ⊢
          case assign x y => exact fun _ v e w f hv _ => by rw [hv] at h3; exact TVal.soundB_sound h3
          case addInput x y => exact fun v e w f hv _ => by rw [hv] at h3; exact TVal.soundB_sound h3
          case destroy x => exact fun v hv => by rw [hv] at h3; exact TVal.soundB_sound h3
        · cases o <;> simp only [PReady]
          case copy x y => exact need y (by simp [TOp.needs])
          case assign x y =>
            exact ⟨need y (by simp [TOp.needs]), fun v e hv => need x (by simp [TOp.needs]) _ hv, fun v hv => need x (by simp [TOp.needs]) _ hv⟩
          case addInput x y => exact ⟨need x (by simp [TOp.needs]), need y (by simp [TOp.needs])⟩
          case addOutput x y => exact ⟨need x (by simp [TOp.needs]), need y (by simp [TOp.needs])⟩
          case onIn x _ => exact need x (by simp [TOp.needs])
          case onInput x _ _ => exact need x (by simp [TOp.needs])
    · rw [TVals.pstep_ne (by omega)]
      exact h0 x hx

/-- A transaction with one input, one output and a witness of two items. -/
def exWire : Bytes := [2, 0, 0, 0, 0, 1, 1] ++ zeros 32 ++ [7, 0, 0, 0, 0, 0xfd, 0xff, 0xff, 0xff, 1, 0xe8, 3, 0, 0, 0, 0, 0, 0, 1, 0x51, 2, 2, 9, 8, 1, 0x52, 0, 0, 0, 0]

/-- A program that parses it in pieces, copies it, parses other bytes into the same variable and abandons them in the middle. -/
def exParse : List POp :=
  [.op (.newTx 0), .parse 0 (.of (exWire.take 20)), .parse 0 (.of ((exWire.take 51).drop 20)), .parse 0 (.of (exWire.drop 51)), .op (.copy 1 0),
    .parse 0 (.of (exWire.take 44)), .op (.onInput 1 0 (.push [1, 2, 3])), .op (.destroy 0), .op (.destroy 1)]

theorem exParse_ok : PAllAllowed exParse fun _ => none := pcheck_sound (n := 2) (fun _ _ => rfl) (by decide +kernel)

/-- The calls say incomplete, incomplete, done, incomplete. -/
example : (TVals.pouts exParse fun _ => none).map (·.map (·.status)) =
    [none, some .incomplete, some .incomplete, some .done, none, some .incomplete, none, none, none] := by decide +kernel

/-- Nothing is left. -/
example : ∃ W outs, (TWorld.init exDenies).prun exParse = .ok (W, outs) ∧ ∀ q, W.heap.blocks q = none := by
  obtain ⟨W, outs, L, h1, h2, h3⟩ := C85_rest _ exGenerous _ exParse_ok (fun x => by
    rcases Nat.lt_or_ge x 2 with h | h
    · have : x = 0 ∨ x = 1 := by omega
      rcases this with rfl | rfl <;> decide +kernel
    · rw [TVals.prun_ne]
      intro op ho
      simp only [exParse, List.mem_cons, List.not_mem_nil, or_false] at ho
      rcases ho with rfl | rfl | rfl | rfl | rfl | rfl | rfl | rfl | rfl <;> simp only [POp.target, TOp.target] <;> omega)
  have h0 : pallLosses exParse (fun _ => none) = 0 := by decide +kernel
  rw [h0] at h2
  have hL : L = ∅ := Finset.card_eq_zero.1 (by omega)
  refine ⟨W, outs, h1, fun q => ?_⟩
  by_contra hc
  have := (h3 q).1 hc
  rw [hL] at this
  simp at this

/-- What is in the copy after the original has been overwritten. -/
example : ∃ W outs, (TWorld.init exDenies).prun (exParse.take 6) = .ok (W, outs) ∧
    W.view 1 = .ok (.tx 2 [⟨zeros 32, 7, [], 0xfffffffd, 2, [2, 9, 8, 1, 0x52]⟩] [⟨1000, [0x51]⟩] 0) := by
  obtain ⟨W, h1, h2⟩ := C85_values _ exGenerous (exParse.take 6) ((pallAllowed_append (ops1 := exParse.take 6) (ops2 := exParse.drop 6)).1 exParse_ok).1
  refine ⟨W, _, h1, ?_⟩
  obtain ⟨v, f, g, k⟩ : ∃ v, TVals.prun (exParse.take 6) (fun _ => none) 1 = some v ∧
      v.view = .tx 2 [⟨zeros 32, 7, [], 0xfffffffd, 2, [2, 9, 8, 1, 0x52]⟩] [⟨1000, [0x51]⟩] 0 ∧ v.status = .done := ⟨_, rfl, by decide +kernel, by decide +kernel⟩
  rw [(h2 1).2 v f k, g]

/-- A transaction without witness in three pieces. -/
def exCuts : List Bytes :=
  [[2, 0, 0, 0, 1] ++ zeros 30, zeros 2 ++ [7, 0, 0, 0, 0, 0xfd, 0xff, 0xff, 0xff, 1, 0xe8, 3], [0, 0, 0, 0, 0, 0, 1, 0x51, 0, 0, 0, 0]]

example : ∃ W outs, (TWorld.init exDenies).prun (feedTx (exCuts.map .of)) = .ok (W, outs) ∧ ∀ q, W.heap.blocks q = none := by
  obtain ⟨x, r, h1, h2, h3⟩ : ∃ x r, readTx exCuts.flatten = .ok x r ∧ x.ins ≠ [] ∧ x.outs ≠ [] := ⟨_, _, rfl, by decide +kernel, by decide +kernel⟩
  obtain ⟨W, outs, k1, -, k2, -⟩ := C85_pieces _ exGenerous exCuts x r h1 h2 h3 (fun k hk => by
    have hk3 : k < 2 := by
      have : exCuts.length = 3 := rfl
      omega
    have hk2 : k = 0 ∨ k = 1 := by omega
    refine ⟨(by rcases hk2 with rfl | rfl <;> rfl), ?_⟩
    rintro ⟨hdr, n, v, q, is, o, r, ⟨vb, g1, g2, g3, g4⟩, g6, _⟩
    rcases g4 with ⟨g4, _⟩ | ⟨_, g5⟩
    · cases g4
    · have g7 : (exCuts.take (k + 1)).flatten[4]? = some 1 := by rcases hk2 with rfl | rfl <;> rfl
      rw [g6, g5, List.append_assoc, List.getElem?_append_right (by omega), g1] at g7
      simp at g7)
  exact ⟨W, outs, k1, k2⟩

/-- Counts of 0: an input count of 0 behind marker and flag loses one block. -/
example : fedZeros {} [.of [2, 0, 0, 0, 0, 1, 0], .of [1]] = 2 := by decide +kernel
example : (fed {} [.of [2, 0, 0, 0, 0, 1, 0], .of [1]]).status ≠ .ub := by decide +kernel

/-- Bytes with `ff` in them which are a transaction, and bytes without which are none. -/
example : readTx exWire ≠ .bad := by decide +kernel
example : ¬ Wide [2, 0, 0, 0, 0, 2, 7, 7] := by
  rintro ⟨pre, r, h, _⟩
  have : (0xff : UInt8) ∈ ([2, 0, 0, 0, 0, 2, 7, 7] : Bytes) := by rw [h]; simp
  revert this; decide

end UB
