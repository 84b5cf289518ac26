import Verif.Lemmas.PSBTLife
import Verif.Lemmas.PSBTSafe
import Verif.Lemmas.Pieces
import Verif.Props.PSBTPieces
import Verif.Props.HeapProgram
import Verif.Props.Electrum

/-
C77 the life of a PSBT object that has been given bytes: destruction, copies, assignment.
C78 copies in the middle of a parse.
-/

namespace UB
open Spec

/-! ### C77: objects that may be destroyed -/

/-- C77: a new object that is given any pieces, until a call does not end with INCOMPLETE, may be destroyed unless a call FAILED (or was undefined). -/
theorem C77_destroy (junk : Nat → Bytes) (cs : List Bytes)
    (hf : (feedPieces (PSBT.fromStream junk) (·.status) {} cs).1.status ≠ .failed) (hu : (feedPieces (PSBT.fromStream junk) (·.status) {} cs).1.status ≠ .ub) :
    (feedPieces (PSBT.fromStream junk) (·.status) {} cs).1.release = .ok () := by
  have key : ∀ (cs : List Bytes) (p : PSBT), p.Sane → (p.status = .incomplete ∨ p.status = .done ∧ p.tx.txIns = [] ∧ p.tx.txOuts = []) →
      (feedPieces (PSBT.fromStream junk) (·.status) p cs).1.status ≠ .failed → (feedPieces (PSBT.fromStream junk) (·.status) p cs).1.status ≠ .ub →
      (feedPieces (PSBT.fromStream junk) (·.status) p cs).1.Sane := by
    intro cs
    induction cs with
    | nil => intro p hp _ _ _; exact hp
    | cons c cs ih =>
      intro p hp hs hf hu
      have hr : PSBT.Res true (PSBT.fromStream junk p (.of c)).1 := PSBT.fromStream_res junk (fun _ => Or.inl hp) (fun hd _ => by
        rcases hs with hs | hs
        · rw [hs] at hd; cases hd
        · exact hs.2) _
      unfold feedPieces at hf hu ⊢
      dsimp only at hf hu ⊢
      split at hf
      · rename_i hc
        rw [if_pos hc] at hu ⊢
        rcases hr with hr | hr | ⟨hr | hr, -⟩
        · rw [hr] at hc; cases hc
        · rw [hr] at hc; cases hc
        · exact ih _ hr (Or.inl hc) hf hu
        · cases hr.1
      · rename_i hc
        rw [if_neg hc] at hu ⊢
        rcases hr with hr | hr | ⟨hr | hr, -⟩
        · exact absurd hr hf
        · exact absurd hr hu
        · exact hr
        · cases hr.1
  exact (key cs {} PSBT.sane_fresh (Or.inr ⟨rfl, rfl, rfl⟩) hf hu).release

/-- C77: an object to which `parse` is applied any number of times, with any bytes and whatever the calls before returned, may be destroyed, reused, copied and
assigned to when the last call ended with DONE. -/
theorem C77_done (calls : List ((Nat → Bytes) × PStream)) (hd : (calls.foldl (fun p c => (PSBT.fromStream c.1 p c.2).1) ({} : PSBT)).status = .done) :
    (calls.foldl (fun p c => (PSBT.fromStream c.1 p c.2).1) ({} : PSBT)).release = .ok () := by
  have key : ∀ (calls : List ((Nat → Bytes) × PStream)) (p : PSBT), (p.status = .incomplete → PSBT.Good false p) → (p.status = .done → p.Sane) →
      (calls.foldl (fun p c => (PSBT.fromStream c.1 p c.2).1) p).status = .done → (calls.foldl (fun p c => (PSBT.fromStream c.1 p c.2).1) p).Sane := by
    intro calls
    induction calls with
    | nil => intro p _ h hd; exact h hd
    | cons c calls ih =>
      intro p h1 _ hd
      have hr : PSBT.Res false (PSBT.fromStream c.1 p c.2).1 := PSBT.fromStream_res c.1 h1 (fun _ h => by cases h) c.2
      refine ih _ (fun hi => ?_) (fun hd => ?_) hd
      · rcases hr with hr | hr | hr
        · rw [hr] at hi; cases hi
        · rw [hr] at hi; cases hi
        · exact hr.1
      · rcases hr with hr | hr | ⟨hr | hr, hl⟩
        · rw [hr] at hd; cases hd
        · rw [hr] at hd; cases hd
        · exact hr
        · have := hl hd; omega
  exact (key calls {} (fun h => by cases h) (fun _ => PSBT.sane_fresh) hd).release

theorem C77_done_once (junk : Nat → Bytes) (s : PStream) (hd : (PSBT.fromStream junk {} s).1.status = .done) : (PSBT.fromStream junk {} s).1.release = .ok () :=
  C77_done [(junk, s)] hd

/-- The document of `C57` is read by a new object, which may then be destroyed. -/
example (junk : Nat → Bytes) (rest : Bytes) : (PSBT.fromStream junk {} (.of (exDoc.bytes ++ rest))).1.release = .ok () :=
  C77_done_once junk _ (C57_parse_partial junk PSBT.clean_fresh exDoc exDoc_ok rest).1

/-! ### C77: objects that may not -/

/-- The first pair names a transaction that cannot be read: the inputs and outputs found so far stay, without metadata. -/
theorem PSBT.tx_refused (junk : Nat → Bytes) {p : PSBT} (hp : p.Clean) {vb : Bytes} (hv : vb.length < 2 ^ 31) {t : Tx}
    (ht : t = (p.txStart.fromStream (.of (vb.drop (misread vb.length)))).1) (hd : t.status ≠ .done) (hu : t.status ≠ .ub) (r : Bytes) :
    ∃ q, (PSBT.fromStream junk p (.of (psbtMagic ++ pairBytes ([0], vb) ++ r))).1 = q ∧ q.status = .failed ∧ q.tx = t ∧ q.ins = [] ∧ q.outs = [] := by
  rw [PSBT.fromStream_eq junk hp]
  have hm : PSBT.readMagic PSBT.magic 0 (.of (psbtMagic ++ pairBytes ([0], vb) ++ r)) = (true, 5, .of (varBytes [0] ++ (varBytes vb ++ r))) := by
    simp [PSBT.magic, psbtMagic, pairBytes, PSBT.readMagic, PStream.avail, PStream.readByte]
  rw [hm]
  dsimp only
  rw [PSBT.start_eq hp.status]
  unfold PSBT.readGlobal
  rw [if_pos (by rfl)]
  obtain ⟨k, e1, k1, k2⟩ := Script.ready_var hp.key [0] (varBytes vb ++ r) (by decide)
  obtain ⟨v, e2, v1, v2⟩ := Script.ready_var hp.value vb r hv
  unfold PSBT.parseKey PSBT.parseValue
  dsimp only
  rw [e1]
  dsimp only
  rw [e2]
  dsimp only
  unfold PSBT.globalKey
  dsimp only
  rw [if_neg (show ¬ ((PStream.of r).avail = true ∧ k.status = .incomplete) by rw [k1]; simp)]
  dsimp only
  rw [if_neg (by rw [k1]; simp), if_neg (by rw [k1]; simp)]
  unfold PSBT.globalValue
  dsimp only
  rw [if_neg (show ¬ ((PStream.of r).avail = true ∧ v.status = .incomplete) by rw [v1]; simp)]
  dsimp only
  rw [if_neg (by rw [v1]; simp), if_neg (by rw [v1]; simp)]
  unfold PSBT.afterGlobal
  rw [if_pos ⟨rfl, v1, k1⟩]
  unfold PSBT.readTx
  dsimp only
  rw [Script.ser_eq k2 (by decide), C.bind_ok, if_neg (by decide), Script.ser_eq v2 (by omega), C.bind_ok, drop_dataPos vb hv]
  change t = (p.txStart.fromStream { bytes := vb.drop (misread vb.length) }).1 at ht
  rw [← ht]
  rw [if_neg hu, if_pos hd, C.pure_eq]
  dsimp only
  rw [if_pos rfl]
  exact ⟨_, rfl, rfl, rfl, rfl, rfl⟩

/-- C77 is false for PSBTs that are refused: the transaction stops short behind the number of its inputs. The parse FAILS, and destroying, copying
or assigning the object is undefined behaviour (NULL is dereferenced). -/
theorem C77_truncated_tx (junk : Nat → Bytes) (ver w rest : Bytes) (c : UInt8) (hver : ver.length = 4) (hc : c ≠ 0)
    (hm : Spec.readTx (ver ++ c :: w) = .more) (hl : (ver ++ c :: w).length < 2 ^ 31) (hmis : misread (ver ++ c :: w).length = 0) :
    ∃ q, (PSBT.fromStream junk {} (.of (psbtMagic ++ pairBytes ([0], ver ++ c :: w) ++ rest))).1 = q ∧ q.status = .failed ∧
      q.release = .ub ∧ q.copy = .ub ∧ (∀ other, q.assign other = .ub) ∧ ∀ self : PSBT, self.assign q = .ub := by
  have hfe := Tx.feed ({} : PSBT).txStart [] (ver ++ c :: w) (Or.inl ⟨rfl, rfl⟩)
  unfold Tx.Out at hfe
  rw [List.nil_append, hm] at hfe
  have hin : (({} : PSBT).txStart.fromStream (.of (ver ++ c :: w))).1.status = .incomplete ∧
      (({} : PSBT).txStart.fromStream (.of (ver ++ c :: w))).1.Mid (ver ++ c :: w) := by
    rcases hfe with ⟨h1, h2, -⟩ | ⟨⟨hdr, n, v, q, is, o, r, hh, e, -⟩, -⟩
    · exact ⟨h1, h2⟩
    · exfalso
      obtain ⟨vb, g1, -, -, ⟨g2, -⟩ | ⟨-, rfl⟩⟩ := hh
      · cases g2
      · rw [List.append_assoc] at e
        obtain ⟨-, e2⟩ := List.append_inj e (by rw [hver, g1])
        rw [List.cons_append] at e2
        injection e2 with e3
        exact hc e3
  obtain ⟨q, h1, h2, h3, h4, h5⟩ := PSBT.tx_refused junk PSBT.clean_fresh hl (t := (({} : PSBT).txStart.fromStream (.of (ver ++ c :: w))).1)
    (by rw [hmis, List.drop_zero]) (by rw [hin.1]; simp) (by rw [hin.1]; simp) rest
  have hn : 0 < q.tx.txIns.length := by
    rw [h3]
    rcases hin.2.shape with ⟨⟨h6, -⟩ | ⟨vb, g1, g2, -⟩, -⟩ | ⟨hdr, sw, n, q', hh, e, -, h7, -⟩
    · rw [List.length_append, hver, List.length_cons] at h6; omega
    · exfalso
      rcases g2 with g2 | g2
      all_goals
        obtain ⟨-, e2⟩ := List.append_inj g2 (by rw [hver, g1])
        injection e2 with e3
        exact hc e3
    · rw [h7]
      obtain ⟨vb, g1, -, -, ⟨-, h8, -⟩ | ⟨-, rfl⟩⟩ := hh
      · omega
      · exfalso
        rw [List.append_assoc] at e
        obtain ⟨-, e2⟩ := List.append_inj e (by rw [hver, g1])
        rw [List.cons_append] at e2
        injection e2 with e3
        exact hc e3
  have hrel : q.release = .ub := by
    unfold PSBT.release
    rw [if_neg]
    rintro ⟨h, -⟩
    rw [h4] at h
    exact absurd h (by rw [List.length_nil]; omega)
  have htake : ∀ self : PSBT, self.take q = .ub := by
    intro self
    unfold PSBT.take
    rw [if_neg]
    rintro ⟨h, -⟩
    rw [h4] at h
    exact absurd h (by rw [List.length_nil]; omega)
  refine ⟨q, h1, h2, hrel, htake {}, fun other => ?_, fun self => ?_⟩
  · unfold PSBT.assign
    rw [hrel, C.bind_ub]
  · unfold PSBT.assign
    rw [htake self]
    cases self.release <;> rfl

/-- C77, in particular: whatever is left of the unsigned transaction of a PSBT, if at least the number of inputs is. -/
theorem C77_cut_tx (junk : Nat → Bytes) (x : Transaction) (hx : WireTx x) (h0 : x.ins ≠ []) (hi : x.ins.length < 253) (ho : x.outs.length < 253)
    (hw : ¬ hasWitness x) (a b rest : Bytes) (hab : a ++ b = txBytes x) (hb : b ≠ []) (ha : 5 ≤ a.length) (hl : a.length < 2 ^ 31) (hmis : misread a.length = 0) :
    ∃ q, (PSBT.fromStream junk {} (.of (psbtMagic ++ pairBytes ([0], a) ++ rest))).1 = q ∧ q.status = .failed ∧ q.release = .ub ∧ q.copy = .ub := by
  have hm : Spec.readTx a = .more := by
    have hc := readTx_complete x hx h0 hi ho []
    rw [List.append_nil, ← hab] at hc
    cases e : Spec.readTx a with
    | more => rfl
    | bad => rw [readTx_bad_mono b e] at hc; cases hc
    | ok y r =>
      rw [readTx_mono b e] at hc
      injection hc with _ hr
      exact absurd (List.append_eq_nil_iff.mp hr).2 hb
  obtain ⟨ver, c, w, rfl, hver⟩ : ∃ ver c w, a = ver ++ c :: w ∧ ver.length = 4 := by
    obtain ⟨c, w, e⟩ : ∃ c w, a.drop 4 = c :: w := by
      cases e : a.drop 4 with
      | nil => have := congrArg List.length e; rw [List.length_drop, List.length_nil] at this; omega
      | cons c w => exact ⟨c, w, rfl⟩
    exact ⟨a.take 4, c, w, by rw [← e, List.take_append_drop], by rw [List.length_take]; omega⟩
  have hc : c ≠ 0 := by
    rw [txBytes, if_neg hw] at hab
    unfold legacyBytes at hab
    simp only [List.append_assoc] at hab
    obtain ⟨-, e⟩ := List.append_inj hab (by rw [hver, length_leBytes])
    unfold compactSize at e
    rw [if_pos (by omega)] at e
    injection e with e1
    rw [e1]
    intro h
    have h2 := congrArg UInt8.toNat h
    rw [UInt8.toNat_ofNat'] at h2
    have h3 := List.length_pos_iff.mpr h0
    rw [Nat.mod_eq_of_lt (by omega)] at h2
    change x.ins.length = 0 at h2
    omega
  obtain ⟨q, h1, h2, h3, h4, -⟩ := C77_truncated_tx junk ver w rest c hver hc hm hl hmis
  exact ⟨q, h1, h2, h3, h4⟩

/-- The smallest such document, 13 bytes. -/
example (junk : Nat → Bytes) : ∃ q, (PSBT.fromStream junk {} (.of [0x70, 0x73, 0x62, 0x74, 0xff, 1, 0, 5, 2, 0, 0, 0, 1])).1 = q ∧ q.status = .failed ∧ q.release = .ub := by
  obtain ⟨q, h1, h2, h3, -⟩ := C77_truncated_tx junk [2, 0, 0, 0] [] [] 1 rfl (by decide) (by decide) (by decide) (by decide)
  exact ⟨q, h1, h2, h3⟩

/-! ### C77: copies -/

theorem Derivation.mapM_copy : ∀ {ds : List Derivation}, Derivation.AllReady ds → ds.mapM Derivation.copy = .ok ds
  | [], _ => rfl
  | d :: ds, h => by
    rw [List.mapM_cons, Derivation.copy, if_pos (h d (List.mem_cons_self ..)), C.bind_ok, Derivation.mapM_copy fun e he => h e (List.mem_cons_of_mem _ he), C.bind_ok]
    rfl

theorem Derivation.Holds.allReady {ds : List Derivation} {os : List KeyOrigin} (h : List.Forall₂ Derivation.Holds ds os) : Derivation.AllReady ds :=
  PSBT.all_ready_iff.1 (Derivation.all_ready h)

theorem InMeta.Holds.copy {m : InMeta} {n : Nat} {fs : List InField} (h : m.Holds n fs) : ∃ c, m.copy = .ok c ∧ c.Holds n fs := by
  unfold InMeta.copy
  rw [Derivation.mapM_copy (Derivation.Holds.allReady h.keys), C.bind_ok, C.pure_eq]
  refine ⟨_, rfl, ?_, Script.assign_holds rfl h.redeem, Script.assign_holds rfl h.witness, h.sigs, h.keys⟩
  have hs := h.spent
  revert hs
  cases lastOf (·.spent n) fs with
  | none => intro hs; dsimp only at hs ⊢; rw [hs]; rfl
  | some o => intro hs; exact TxOut.assign_holds rfl hs

theorem OutMeta.Holds.copy {m : OutMeta} {fs : List OutField} (h : m.Holds fs) : ∃ c, m.copy = .ok c ∧ c.Holds fs := by
  unfold OutMeta.copy
  rw [Derivation.mapM_copy (Derivation.Holds.allReady h.keys), C.bind_ok, C.pure_eq]
  exact ⟨_, rfl, Script.assign_holds rfl h.redeem, Script.assign_holds rfl h.witness, h.keys⟩

theorem mapM_holds {α β : Type} {R : β → α → Prop} {f : α → C α} (hf : ∀ b a, R b a → ∃ c, f a = .ok c ∧ R b c) :
    ∀ {bs : List β} {as : List α}, List.Forall₂ R bs as → ∃ cs, as.mapM f = .ok cs ∧ List.Forall₂ R bs cs
  | _, _, .nil => ⟨[], rfl, .nil⟩
  | _, _, .cons h1 h2 => by
    obtain ⟨c, e1, g1⟩ := hf _ _ h1
    obtain ⟨cs, e2, g2⟩ := mapM_holds hf h2
    exact ⟨c :: cs, by rw [List.mapM_cons, e1, C.bind_ok, e2, C.bind_ok]; rfl, .cons g1 g2⟩

theorem PSBT.Holds.take {p self : PSBT} {d : PsbtDoc} (h : p.Holds d) (hd : d.Ok) :
    ∃ q, self.take p = .ok q ∧ q.Holds d ∧ q.status = p.status ∧ q.key = self.key ∧ q.value = self.value := by
  have h1 := h.ins.length_eq
  rw [List.length_zip, ← hd.ins.length_eq, Nat.min_self] at h1
  have h2 := h.outs.length_eq
  have h3 := h.tx.ins.length_eq
  have h4 := h.tx.outs.length_eq
  have h5 := hd.outs
  obtain ⟨is, e1, g1⟩ := mapM_holds (R := fun (x : In × List InField) (m : InMeta) => m.Holds x.1.prevIndex x.2) (f := InMeta.copy) (fun b a hab => hab.copy) h.ins
  obtain ⟨os, e2, g2⟩ := mapM_holds (R := fun (fs : List OutField) (m : OutMeta) => m.Holds fs) (f := OutMeta.copy) (fun b a hab => hab.copy) h.outs
  unfold PSBT.take
  rw [if_pos ⟨by omega, by omega⟩, List.take_of_length_le (by omega), List.take_of_length_le (by omega), e1, C.bind_ok, e2, C.bind_ok]
  exact ⟨_, rfl, ⟨C21_copy _ _ h.tx, g1, g2⟩, rfl, rfl, rfl⟩

/-- C77: a copy of a PSBT object is the same document, with the same status; the copy may be destroyed, and (after a parse that was DONE) used for the next parse. -/
theorem C77_copy {p : PSBT} {d : PsbtDoc} (h : p.Holds d) (hd : d.Ok) :
    ∃ q, p.copy = .ok q ∧ q.Holds d ∧ q.status = p.status ∧ q.release = .ok () ∧ (p.status = .done → q.Clean) := by
  obtain ⟨q, e, hq, hs, hk, hv⟩ := h.take (self := {}) hd
  refine ⟨q, e, hq, hs, hq.release hd, fun hp => ⟨hs.trans hp, by rw [hk]; exact ⟨rfl, rfl⟩, by rw [hk], by rw [hv]; exact ⟨rfl, rfl⟩, ?_⟩⟩
  rw [hq.release hd]; simp

/-- C77: assignment to an object that may be destroyed. Afterwards the target holds the document of the source, whatever it held before. -/
theorem C77_assign {self p : PSBT} {d : PsbtDoc} (hs : self.release = .ok ()) (h : p.Holds d) (hd : d.Ok) :
    ∃ q, self.assign p = .ok q ∧ q.Holds d ∧ q.status = p.status ∧ q.release = .ok () ∧ (self.Clean → p.status = .done → q.Clean) := by
  obtain ⟨q, e, hq, hst, hk, hv⟩ := h.take (self := self) hd
  refine ⟨q, by unfold PSBT.assign; rw [hs, C.bind_ok]; exact e, hq, hst, hq.release hd, fun hc hp => ⟨hst.trans hp, ?_, ?_, ?_, ?_⟩⟩
  · rw [hk]; exact hc.key
  · rw [hk]; exact hc.keyEmpty
  · rw [hv]; exact hc.value
  · rw [hq.release hd]; simp

/-- The copy of what was read from the document of `C57` holds that document. -/
example (junk : Nat → Bytes) (rest : Bytes) : ∃ q, (PSBT.fromStream junk {} (.of (exDoc.bytes ++ rest))).1.copy = .ok q ∧ q.Holds exDoc := by
  obtain ⟨q, h1, h2, -⟩ := C77_copy (C57_parse_partial junk PSBT.clean_fresh exDoc exDoc_ok rest).2.1 exDoc_ok
  exact ⟨q, h1, h2⟩

/-- C77: the same for Electrum transactions; metadata is what the source has. -/
theorem C77_electrum_copy {e : ElectrumTx} {x : Transaction} (h : e.tx.Holds x) (hm : e.metas.length = x.ins.length) :
    ∃ c, e.copy = .ok c ∧ c.tx.Holds x ∧ c.metas = e.metas ∧ c.status = e.status := by
  have h3 := h.ins.length_eq
  unfold ElectrumTx.copy ElectrumTx.takeMetas
  rw [if_pos (by omega), C.bind_ok, List.take_of_length_le (by omega)]
  exact ⟨_, rfl, C21_copy _ _ h, rfl, rfl⟩

theorem C77_electrum_assign (self : ElectrumTx) {e : ElectrumTx} {x : Transaction} (h : e.tx.Holds x) (hm : e.metas.length = x.ins.length) :
    ∃ c, self.assign e = .ok c ∧ c.tx.Holds x ∧ c.metas = e.metas ∧ c.status = e.status := by
  have h3 := h.ins.length_eq
  unfold ElectrumTx.assign ElectrumTx.takeMetas
  rw [if_pos (by omega), C.bind_ok, List.take_of_length_le (by omega)]
  exact ⟨_, rfl, C21_copy _ _ h, rfl, rfl⟩

/-- C77 is false for Electrum objects whose transaction has inputs but which have no metadata (the array is NULL). -/
theorem C77_electrum_unread (self : ElectrumTx) {e : ElectrumTx} (h : e.tx.txIns ≠ []) (hm : e.metas = []) : e.copy = .ub ∧ self.assign e = .ub := by
  have : ¬ e.tx.txIns.length ≤ e.metas.length := by
    rw [hm, List.length_nil]
    have := List.length_pos_iff.mpr h
    omega
  unfold ElectrumTx.copy ElectrumTx.assign ElectrumTx.takeMetas
  rw [if_neg this]
  exact ⟨rfl, rfl⟩

/-! ### C78: a PSBT copied in the middle of a parse -/

/-- Once the position of the next key is below the end of the prefix, nothing leads to DONE. -/
theorem PSBT.loop_lost (junk : Nat → Bytes) (fuel : Nat) {p : PSBT} (hp : p.lastKeyPos < 5) (hs : p.status = .incomplete) (br : Nat) (s : PStream) :
    (loop junk fuel p br s).1.lastKeyPos < 5 ∧ (loop junk fuel p br s).1.status = .incomplete := by
  have h0 : p.sections = 0 := by unfold sections; rw [if_neg (by omega)]
  have : loop junk fuel p br s = p.finishAll br s := by
    cases fuel with
    | zero => rfl
    | succ n =>
      unfold loop
      rw [if_neg]
      rw [h0]
      intro h2
      exact absurd (UInt8.lt_iff_toNat_lt.mp h2.2) (by simp)
  rw [this]
  unfold finishAll
  rw [h0, if_neg (by simp)]
  exact ⟨hp, hs⟩

/-- The call leaves the object where it is, or refuses. -/
def PSBT.Lost (q : PSBT) : Prop := q.status = .failed ∨ q.status = .ub ∨ (q.lastKeyPos < 5 ∧ q.status = .incomplete)

theorem PSBT.afterGlobal_lost (junk : Nat → Bytes) {p : PSBT} (hp : p.lastKeyPos < 5) (hs : p.status = .incomplete) (br : Nat) (s : PStream) :
    (afterGlobal junk p br s).1.Lost := by
  unfold afterGlobal
  rw [if_neg (by omega)]
  exact Or.inr (Or.inr (loop_lost junk _ hp hs br s))

theorem PSBT.globalValue_lost (junk : Nat → Bytes) {p : PSBT} (hp : p.lastKeyPos < 5) (hs : p.status = .incomplete) (br : Nat) (s : PStream) :
    (globalValue junk p br s).1.Lost := by
  unfold globalValue
  have h1 : ∃ q n s', (if s.avail ∧ p.value.status = .incomplete then p.parseValue br s else (p, br, s)) = (q, n, s') ∧ q.lastKeyPos < 5 ∧ q.status = .incomplete := by
    split
    · exact ⟨_, _, _, rfl, hp, hs⟩
    · exact ⟨_, _, _, rfl, hp, hs⟩
  obtain ⟨q, n, s', e1, a1, a2⟩ := h1
  rw [e1]
  dsimp only
  split
  · exact Or.inr (Or.inl rfl)
  split
  · exact Or.inl rfl
  · exact afterGlobal_lost junk a1 a2 _ _

theorem PSBT.globalKey_lost (junk : Nat → Bytes) {p : PSBT} (hp : p.lastKeyPos < 5) (hs : p.status = .incomplete) (br : Nat) (s : PStream) :
    (globalKey junk p br s).1.Lost := by
  unfold globalKey
  have h1 : ∃ q n s', (if s.avail ∧ p.key.status = .incomplete then p.parseKey br s else (p, br, s)) = (q, n, s') ∧ q.lastKeyPos < 5 ∧ q.status = .incomplete := by
    split
    · exact ⟨_, _, _, rfl, hp, hs⟩
    · exact ⟨_, _, _, rfl, hp, hs⟩
  obtain ⟨q, n, s', e1, a1, a2⟩ := h1
  rw [e1]
  dsimp only
  split
  · exact Or.inr (Or.inl rfl)
  split
  · split
    · exact Or.inr (Or.inl rfl)
    · exact Or.inl rfl
  · exact globalValue_lost junk a1 a2 _ _

theorem PSBT.fromStream_lost (junk : Nat → Bytes) {p : PSBT} (hp : p.Lost) (s : PStream) : (fromStream junk p s).1.Lost := by
  unfold fromStream
  split
  · exact hp
  rename_i hc
  rw [not_or] at hc
  rcases hp with hp | hp | ⟨hp, hs⟩
  · exact absurd hp hc.1
  · exact absurd hp hc.2
  rw [if_neg (by rw [hs]; simp)]
  have hst : p.start = p := by unfold start; rw [if_neg (by rw [hs]; simp)]; cases p; simp_all
  rw [hst]
  dsimp only
  split
  · exact Or.inl rfl
  · unfold readGlobal
    split
    · rename_i br s' _ _
      obtain ⟨k, n, s1, e1⟩ := parseKey_kept p br s'
      obtain ⟨v, n2, s2, e2⟩ := parseValue_kept { p with key := k } n s1
      rw [e1]
      dsimp only
      rw [e2]
      exact globalKey_lost junk (p := { p with key := k, value := v }) hp hs _ _
    · exact globalKey_lost junk hp hs _ _

/-- C78: a copy of a PSBT object that is waiting for more bytes can be fed whatever one likes, the remaining bytes of the document or all of it: it never becomes DONE. -/
theorem C78_psbt_copy (junk : Nat → Bytes) {p q : PSBT} (hs : p.status = .incomplete) (hc : p.copy = .ok q) (cs : List Bytes) :
    (feedPieces (PSBT.fromStream junk) (·.status) q cs).1.status ≠ .done := by
  have h0 : q.Lost := by
    unfold PSBT.copy PSBT.take at hc
    split at hc
    · revert hc
      cases (p.ins.take p.tx.txIns.length).mapM InMeta.copy with
      | ub => intro hc; cases hc
      | ok is =>
        cases (p.outs.take p.tx.txOuts.length).mapM OutMeta.copy with
        | ub => intro hc; cases hc
        | ok os => intro hc; cases hc; exact Or.inr (Or.inr ⟨show 0 < 5 by decide, hs⟩)
    · cases hc
  have key : ∀ (cs : List Bytes) (q : PSBT), q.Lost → (feedPieces (PSBT.fromStream junk) (·.status) q cs).1.Lost := by
    intro cs
    induction cs with
    | nil => intro q h; exact h
    | cons c cs ih =>
      intro q h
      unfold feedPieces
      dsimp only
      split
      · exact ih _ (PSBT.fromStream_lost junk h _)
      · exact PSBT.fromStream_lost junk h _
  rcases key cs q h0 with h | h | h
  · rw [h]; simp
  · rw [h]; simp
  · rw [h.2]; simp

/-- C78: whereas the object itself, given the remaining bytes, ends up DONE with the document: an instance of `C74`. The copy exists. -/
theorem C78_psbt_original (junk : Nat → Bytes) (d : PsbtDoc) (hd : d.Ok) (w b : Bytes) (hw : w ≠ []) (hab : psbtMagic ++ [1, 0] ++ w ++ b = d.bytes)
    (hl : w.length < (varBytes (txBytes d.tx)).length) :
    ∃ p q, (PSBT.fromStream junk {} (.of (psbtMagic ++ [1, 0] ++ w))).1 = p ∧ p.status = .incomplete ∧ p.copy = .ok q ∧
      (PSBT.fromStream junk p (.of b)).1.status = .done ∧ (PSBT.fromStream junk p (.of b)).1.Holds d ∧
      (PSBT.fromStream junk q (.of b)).1.status ≠ .done := by
  have hb : d.bytes = psbtMagic ++ [1, 0] ++ (varBytes (txBytes d.tx) ++ mapsBytes d.maps) := by
    rw [d.bytes_eq]
    unfold pairBytes
    rw [show varBytes [0] = [1, 0] from by decide]
    simp only [List.append_assoc]
  rw [hb, List.append_assoc] at hab
  obtain ⟨y, hy, -⟩ := split_left (List.append_cancel_left hab).symm (by omega)
  have hne : y ≠ [] := by
    rintro rfl
    rw [List.append_nil] at hy
    rw [hy] at hl
    omega
  obtain ⟨q0, e0, k, v, hk, hh, hm, hq⟩ := PSBT.mid_first junk PSBT.clean_fresh hy.symm hd.size hne hw
  rw [← List.append_assoc] at e0
  have hst : q0.status = .incomplete := by rw [hq]; rfl
  obtain ⟨c, hc⟩ : ∃ c, q0.copy = .ok c := by rw [hq]; exact ⟨_, rfl⟩
  have h := C74_in_transaction junk PSBT.clean_fresh d hd [] [psbtMagic ++ [1, 0] ++ w, b] (by simp)
    (by rw [hb, ← hab]; simp only [List.flatten_cons, List.flatten_nil, List.append_nil, List.append_assoc]) (by
      intro i h1 h2
      have : i = 1 := by simp only [List.length_cons, List.length_nil] at h2; omega
      subst this
      simp only [List.take_succ_cons, List.take_zero, List.flatten_cons, List.flatten_nil, List.append_nil, List.length_append, show psbtMagic.length = 5 from rfl,
        List.length_cons, List.length_nil]
      have := List.length_pos_iff.mpr hw
      omega)
  unfold feedPieces at h
  dsimp only at h
  rw [e0] at h
  dsimp only at h
  rw [if_pos hst] at h
  have hf : (feedPieces (PSBT.fromStream junk) (·.status) q0 [b]).1 = (PSBT.fromStream junk q0 (.of b)).1 := by
    unfold feedPieces
    dsimp only
    split
    · rfl
    · rfl
  rw [hf] at h
  have hc2 := C78_psbt_copy junk hst hc [b]
  have hf2 : (feedPieces (PSBT.fromStream junk) (·.status) c [b]).1 = (PSBT.fromStream junk c (.of b)).1 := by
    unfold feedPieces
    dsimp only
    split
    · rfl
    · rfl
  rw [hf2] at hc2
  exact ⟨q0, c, by rw [e0], hst, hc, h.1, h.2.1, hc2⟩

theorem compactSize_cons (n : Nat) (h : n < 2 ^ 31) : ∃ b t, compactSize n = b :: t ∧ t.length = extraBytes b ∧ b ≠ 0xff ∧
    ∀ part, prefixValue b (t ++ part) = n := by
  by_cases h1 : n < 253
  · have hb : (UInt8.ofNat n).toNat = n := by simp; omega
    have hlt : UInt8.ofNat n < 0xfd := by rw [UInt8.lt_iff_toNat_lt, hb]; exact h1
    have hne : UInt8.ofNat n ≠ 0xff := by
      intro h; rw [h] at hb; simp at hb; omega
    have he : extraBytes (UInt8.ofNat n) = 0 := by unfold extraBytes; rw [if_pos hlt]
    exact ⟨_, [], compactSize_small h1, he.symm, hne, fun part => by unfold prefixValue; rw [if_pos he, hb]⟩
  · by_cases h2 : n < 65536
    · refine ⟨_, _, compactSize_2 h1 h2, by simp [extraBytes], by decide, fun part => ?_⟩
      unfold prefixValue
      rw [if_neg (by decide), show extraBytes 0xfd = 2 by decide, List.take_append_of_le_length (by simp), List.take_of_length_le (by simp), leValue_leBytes]
      omega
    · refine ⟨_, _, compactSize_4 h2 (by omega), by simp [extraBytes], by decide, fun part => ?_⟩
      unfold prefixValue
      rw [if_neg (by decide), show extraBytes 0xfe = 4 by decide, List.take_append_of_le_length (by simp), List.take_of_length_le (by simp), leValue_leBytes]
      omega

/-- An input of which the bytes end inside the script. -/
theorem TxIn.mid_script {t : TxIn} (hr : t.Ready) {head part : Bytes} {n : Nat} (hh : head.length = 36) (hn : n < 2 ^ 31) (hp : part.length < n) :
    (t.fromStream (.of (head ++ compactSize n ++ part))).1.Mid (head ++ compactSize n ++ part) ∧
      (t.fromStream (.of (head ++ compactSize n ++ part))).1.scriptSig.scriptLen = n := by
  obtain ⟨b, l, e1, e2, e3, e4⟩ := compactSize_cons n hn
  have hd : (head ++ compactSize n ++ part).drop 36 = b :: (l ++ part) := by
    rw [List.append_assoc, ← hh, List.drop_left, e1, List.cons_append]
  have hv : readVar (b :: (l ++ part)) = .more := by
    simp only [readVar]
    rw [if_neg e3, if_neg (by simp [e2]), e4, if_neg (by rw [e1]; simp [e2]; omega), ← e2, List.drop_left, if_pos hp]
  have hm : readIn (head ++ compactSize n ++ part) = .more := by
    unfold readIn
    rw [if_neg (by simp [hh]), hd, hv]
  have := TxIn.feed t [] (head ++ compactSize n ++ part) (Or.inl ⟨hr, rfl⟩)
  unfold Fed at this
  rw [List.nil_append, hm] at this
  obtain ⟨_, h, _⟩ := this
  refine ⟨h, ?_⟩
  obtain ⟨r0, hs, _⟩ := h.script
  rw [hd] at hs
  rcases hs with ⟨hs, _⟩ | ⟨_, _, hs⟩ | ⟨d, hs, _⟩
  · simp at hs
  · obtain ⟨b', r', g1, _, g3⟩ := hs.shape
    injection g1 with g1 g2
    subst g1 g2
    rcases g3 with ⟨g3, _⟩ | ⟨_, _, _, _, g3, _⟩
    · simp only [List.length_append] at g3; omega
    · rw [g3, e4]
  · rw [hv] at hs; cases hs

/-- A copy forgets that the script is incomplete. -/
theorem TxIn.resumed {t u : TxIn} {p c : Bytes} {n : Nat} (hm : t.Mid p) (hu : u.status = t.status ∧ u.bytesParsed = t.bytesParsed ∧ u.hash = t.hash ∧
      u.outputIndex = t.outputIndex) (hs : u.scriptSig.status = .done ∧ u.scriptSig.scriptLen = n) (hn : n < 2 ^ 31) (h1 : 36 < p.length)
    (h2 : p.length < 36 + (compactSize n).length + n) (hc : c ≠ []) : (u.fromStream (.of c)).1.status = .ub := by
  obtain ⟨u1, u2, u3, u4⟩ := hu
  rw [fromStream_eq _ _ (by rw [u1, hm.status]; rintro (h | h) <;> cases h)]
  have hst : u.start = u := by
    unfold start
    have : u.status = .incomplete := by rw [u1, hm.status]
    cases u; simp_all
  obtain ⟨hash', ix', e1, -⟩ := readHead_spec u p c (by rw [u2, hm.parsed]) (by rw [u3, hm.hash_len]) (by rw [u3, hm.hash]) (by rw [u4, hm.index])
  rw [hst, e1, show 36 - p.length = 0 by omega, Nat.min_zero, List.drop_zero]
  dsimp only
  rw [readScript_eq]
  have hss : subScript u.scriptSig (0 + u.bytesParsed = 36) (.of c) = (u.scriptSig, 0, .of c) := by
    unfold subScript subScript2
    rw [if_neg (by rw [u2, hm.parsed]; omega)]
    dsimp only
    rw [if_neg (by rw [hs.1]; simp)]
    rfl
  dsimp only
  rw [hss]
  have hl : u.scriptSig.length = n + (compactSize n).length := by
    unfold Script.length
    rw [hs.2, lenVarIntN_eq _ (by omega)]
  unfold readTail
  dsimp only
  rw [if_neg (by rw [hs.1]; decide), if_neg (by rw [hs.1]; decide), PStream.readN_of]
  dsimp only
  rw [if_pos ⟨by
    rw [hl, u2, hm.parsed]
    obtain ⟨x, c, rfl⟩ := List.exists_cons_of_ne_nil hc
    rw [show 36 + (n + (compactSize n).length) + 4 - (0 + 0 + p.length) = (36 + (n + (compactSize n).length) + 3 - (0 + 0 + p.length)) + 1 by omega]
    simp, by rw [hl, u2, hm.parsed]; omega⟩]

/-- C78: an input of which the bytes end inside the script, copied or assigned to a new object: whatever byte comes next, parsing goes on
with undefined behaviour, a shift by a negative number of bits (the original would be INCOMPLETE or DONE by `C15_txin`). -/
theorem C78_txin {t : TxIn} (hr : t.Ready) {head part : Bytes} {n : Nat} (hh : head.length = 36) (hn : n < 2 ^ 31) (hp : part.length < n) {c : Bytes}
    (hc : c ≠ []) :
    ((t.fromStream (.of (head ++ compactSize n ++ part))).1.copy.fromStream (.of c)).1.status = .ub ∧
      ((({} : TxIn).assign (t.fromStream (.of (head ++ compactSize n ++ part))).1).fromStream (.of c)).1.status = .ub := by
  obtain ⟨hm, hl⟩ := TxIn.mid_script hr hh hn hp
  generalize (t.fromStream (.of (head ++ compactSize n ++ part))).1 = u at hm hl ⊢
  have hcl := compactSize_length n
  have h1 : 36 < (head ++ compactSize n ++ part).length := by simp only [List.length_append, hh]; omega
  have h2 : (head ++ compactSize n ++ part).length < 36 + (compactSize n).length + n := by simp only [List.length_append, hh]; omega
  refine ⟨TxIn.resumed hm ⟨rfl, rfl, rfl, rfl⟩ ?_ hn h1 h2 hc, TxIn.resumed hm ⟨rfl, rfl, rfl, rfl⟩ ?_ hn h1 h2 hc⟩
  · unfold TxIn.copy Script.copy
    rw [hl, if_pos (by omega)]
    exact ⟨rfl, rfl⟩
  · unfold TxIn.assign Script.assign
    dsimp only
    rw [hl, if_pos (by omega)]
    exact ⟨rfl, rfl⟩

example : ({} : TxIn).Ready ∧ (zeros 36).length = 36 ∧ 107 < 2 ^ 31 ∧ ([0x48, 0x30] : Bytes).length < 107 ∧ ([0x45] : Bytes) ≠ [] := by
  refine ⟨⟨rfl, rfl, rfl⟩, by simp, by decide, by decide, by decide⟩

namespace PSBT

theorem addM_len {tx : Tx} {junk : Bytes} {sec : Nat} {ms ms' : List InMeta × List OutMeta} {k v : Bytes} {r : Int}
    (h : addM tx junk sec ms k v = .ok (r, ms')) : ms'.1.length = ms.1.length ∧ ms'.2.length = ms.2.length := by
  unfold addM at h
  split_ifs at h
  · cases h; exact ⟨rfl, rfl⟩
  · obtain ⟨c, -, h⟩ := C.bind_inv h
    split at h
    · obtain ⟨⟨r', m'⟩, -, h⟩ := C.bind_inv h
      cases h
      exact ⟨List.length_set, rfl⟩
    · cases h
  · obtain ⟨c, -, h⟩ := C.bind_inv h
    split at h
    · obtain ⟨⟨r', m'⟩, -, h⟩ := C.bind_inv h
      cases h
      exact ⟨rfl, List.length_set⟩
    · cases h

theorem runMap_len {tx : Tx} {junk : Nat → Bytes} {sec : Nat} : ∀ {qs : List Pair} {pos pos' : Nat} {ms ms' : List InMeta × List OutMeta},
    runMap tx junk sec qs pos ms = .ok (some (pos', ms')) → ms'.1.length = ms.1.length ∧ ms'.2.length = ms.2.length
  | [], pos, pos', ms, ms', h => by cases h; exact ⟨rfl, rfl⟩
  | (k, v) :: qs, pos, pos', ms, ms', h => by
    unfold runMap at h
    obtain ⟨⟨r, m⟩, h1, h⟩ := C.bind_inv h
    dsimp only at h
    split_ifs at h
    · cases h
    · have h2 := runMap_len h
      have h3 := addM_len h1
      exact ⟨h2.1.trans h3.1, h2.2.trans h3.2⟩

theorem runMaps_len {tx : Tx} {junk : Nat → Bytes} : ∀ {maps : List (List Pair)} {sec pos pos' : Nat} {ms ms' : List InMeta × List OutMeta},
    runMaps tx junk maps sec pos ms = .ok (some (pos', ms')) → ms'.1.length = ms.1.length ∧ ms'.2.length = ms.2.length
  | [], sec, pos, pos', ms, ms', h => by cases h; exact ⟨rfl, rfl⟩
  | m :: maps, sec, pos, pos', ms, ms', h => by
    unfold runMaps at h
    obtain ⟨o, h1, h⟩ := C.bind_inv h
    cases o with
    | none => cases h
    | some x =>
      obtain ⟨pos1, ms1⟩ := x
      have h2 := runMaps_len h
      have h3 := runMap_len h1
      exact ⟨h2.1.trans h3.1, h2.2.trans h3.2⟩

/-- The object between two pairs: `Q` has read the maps `pre` and the pairs `qs1`, the loop goes on with `tail`. -/
theorem before_pair (junk : Nat → Bytes) {p : PSBT} (hp : p.Clean) {vb : Bytes} {pre post : List (List Pair)} {qs1 qs2 : List Pair} {t : Tx}
    {ms : List InMeta × List OutMeta} (h : Accepts junk p vb (pre ++ (qs1 ++ qs2) :: post) t ms) (tail : Bytes) :
    ∃ Q f br, fromStream junk p (.of (psbtMagic ++ pairBytes ([0], vb) ++ (mapsBytes pre ++ (qs1.flatMap pairBytes ++ tail)))) =
        loop junk (f + 1) Q br (.of tail) ∧
      Q.key.Ready ∧ Q.value.Ready ∧ Q.sec.toNat = pre.length ∧ Q.sec < Q.sections ∧ Q.tx = t ∧ Q.ins.length = t.txIns.length ∧
      Q.outs.length = t.txOuts.length ∧ ((∀ n, (junk n).length = 65) → MetasAt t (Q.ins, Q.outs) pre.length qs1) := by
  obtain ⟨k, v, hk, hv, e⟩ := read_tx junk hp h.size h.tx h.done (mapsBytes pre ++ (qs1.flatMap pairBytes ++ tail))
  rw [e]
  obtain ⟨pos, hrun⟩ := h.run
  obtain ⟨pos1, ms1, hr1, hr2⟩ := runMaps_append t junk pre _ 0 _ _ _ hrun
  obtain ⟨pos2, ms2, hr3, hr4⟩ := runMaps_split t junk qs1 qs2 post _ _ _ _ hr2
  have hsec := sections_afterTx p t k v vb
  have hls := h.sections
  rw [List.length_append, List.length_cons] at hls
  rw [Nat.zero_add] at hr3 hr4
  have hgp : ∀ m ∈ pre, ∀ q ∈ m, GoodPair q := fun m hm => h.good m (List.mem_append_left _ hm)
  have hg12 : ∀ q ∈ qs1 ++ qs2, GoodPair q := h.good _ (List.mem_append_right _ (List.mem_cons_self ..))
  have hl7 : 5 < (p.afterTx t k v vb).lastKeyPos := by unfold afterTx; dsimp only; omega
  obtain ⟨f, hf⟩ : ∃ f, 2 * (mapsBytes pre ++ (qs1.flatMap pairBytes ++ tail)).length + 2 = f + 1 + qs1.length + rounds pre := by
    have h1 := rounds_le pre
    have h2 := rounds_le.pairs_le qs1
    refine ⟨2 * (mapsBytes pre ++ (qs1.flatMap pairBytes ++ tail)).length + 2 - 1 - qs1.length - rounds pre, ?_⟩
    simp only [List.length_append]
    omega
  rw [hf]
  obtain ⟨k1, v1, hk1, hv1, hp1, e1⟩ := loop_maps junk pre (f + 1 + qs1.length) (p.afterTx t k v vb) (5 + (2 + (varBytes vb).length)) (qs1.flatMap pairBytes ++ tail) pos1 ms1 hk hv hl7
    (by rw [hsec]; show 0 + pre.length ≤ _; omega) hgp hr1
  rw [e1]
  have hpl : pre.length < 256 := by
    have := UInt8.toNat_lt (UInt8.ofNat (1 + t.txIns.length + t.txOuts.length))
    omega
  have hs1 : ((p.afterTx t k v vb).sec + UInt8.ofNat pre.length) = UInt8.ofNat pre.length := by
    show (0 : UInt8) + _ = _
    rw [UInt8.zero_add]
  rw [hs1]
  have htn : (UInt8.ofNat pre.length).toNat = pre.length := by rw [UInt8.toNat_ofNat']; omega
  have hsec1 : ({ p.afterTx t k v vb with key := k1, value := v1, ins := ms1.1, outs := ms1.2, lastKeyPos := pos1, sec := UInt8.ofNat pre.length } : PSBT).sections =
      UInt8.ofNat (1 + t.txIns.length + t.txOuts.length) := by rw [← hsec]; exact sections_eq rfl hl7 (by dsimp only; omega)
  obtain ⟨k2, v2, hk2, hv2, hp2, e2⟩ := loop_pairs junk qs1 (f + 1) { p.afterTx t k v vb with key := k1, value := v1, ins := ms1.1, outs := ms1.2, lastKeyPos := pos1, sec := UInt8.ofNat pre.length }
    (5 + (2 + (varBytes vb).length) + (mapsBytes pre).length) tail pos2 ms2 hk1 hv1 (by dsimp only; omega) (by rw [hsec1, UInt8.lt_iff_toNat_lt]; dsimp only; omega)
    (fun q hq => hg12 q (List.mem_append_left _ hq)) (by dsimp only; rw [htn]; exact hr3)
  rw [e2]
  have l1 := runMaps_len hr1
  have l2 := runMap_len hr3
  dsimp only at hp2
  refine ⟨_, f, _, rfl, hk2, hv2, htn, ?_, rfl, ?_, ?_, ?_⟩
  · refine lt_of_lt_of_eq (b := UInt8.ofNat (1 + t.txIns.length + t.txOuts.length)) ?_ (Eq.symm ?_)
    · rw [UInt8.lt_iff_toNat_lt]
      dsimp only
      omega
    · rw [← hsec]
      exact sections_eq rfl hl7 (by dsimp only; omega)
  · dsimp only; rw [l2.1, l1.1]; simp [noMeta]
  · dsimp only; rw [l2.2, l1.2]; simp [noMeta]
  · intro hj
    have hle : (UInt8.ofNat (1 + t.txIns.length + t.txOuts.length)).toNat ≤ 1 + t.txIns.length + t.txOuts.length := by
      rw [UInt8.toNat_ofNat']; exact Nat.mod_le _ _
    have m1 := runMaps_metas hj pre (by omega) hgp (noMeta_metas t) hr1
    rw [Nat.zero_add] at m1
    exact runMap_metas hj (by omega) qs1 (fun q hq => hg12 q (List.mem_append_left _ hq)) m1 hr3

/-- A round with a complete pair that `add` refuses. -/
theorem loop_refused (junk : Nat → Bytes) (f : Nat) {Q : PSBT} {br : Nat} {q0 : Pair} (hg : GoodPair q0) {rest : Bytes} (hk : Q.key.Ready) (hv : Q.value.Ready)
    (hs : Q.sec < Q.sections) (ha : ∀ r ms, addM Q.tx (junk Q.lastKeyPos) Q.sec.toNat (Q.ins, Q.outs) q0.1 q0.2 = .ok (r, ms) → r < 0)
    {q : PSBT} (hq : q = (loop junk (f + 1) Q br (.of (pairBytes q0 ++ rest))).1) :
    (∃ r ms, addM Q.tx (junk Q.lastKeyPos) Q.sec.toNat (Q.ins, Q.outs) q0.1 q0.2 = .ok (r, ms) ∧ q.status = .failed ∧ q.tx = Q.tx ∧ q.ins = ms.1 ∧ q.outs = ms.2) ∨
      (addM Q.tx (junk Q.lastKeyPos) Q.sec.toNat (Q.ins, Q.outs) q0.1 q0.2 = .ub ∧ q.status = .ub) := by
  obtain ⟨k0, v0⟩ := q0
  obtain ⟨g1, g2, g3⟩ := hg
  dsimp only at g1 g2 g3 ha ⊢
  have e0 : pairBytes (k0, v0) ++ rest = varBytes k0 ++ (varBytes v0 ++ rest) := by rw [pairBytes]; simp only [List.append_assoc]
  have hrd : readVar (pairBytes (k0, v0) ++ rest) = .ok k0 (varBytes v0 ++ rest) := by rw [e0]; exact readVar_varBytes k0 _ g2
  have hrd2 : readVar (varBytes v0 ++ rest) = .ok v0 rest := readVar_varBytes v0 _ g3
  have hcne : pairBytes (k0, v0) ++ rest ≠ [] := by
    intro h
    rw [h] at hrd
    cases hrd
  have hro := round_out Q (junk Q.lastKeyPos) br _ hcne hk hv
  rw [loop, if_pos ⟨by rw [PStream.avail_of]; simpa using hcne, hs⟩] at hq
  generalize hx : Q.round (junk Q.lastKeyPos) br (.of (pairBytes (k0, v0) ++ rest)) = x at hro hq
  clear hx
  cases hro with
  | delim r k hk' hc => rw [hrd] at hc; cases hc; exact absurd rfl g1
  | pair kb vb r r' k v hk' hv' hc hne hr' res ms' ha' h0 =>
    rw [hrd] at hc
    cases hc
    rw [hrd2] at hr'
    cases hr'
    have := ha _ _ ha'
    omega
  | refused kb vb r r' q' hc hne hr' ha' hq' hx hu =>
    rw [hrd] at hc
    cases hc
    rw [hrd2] at hr'
    cases hr'
    dsimp only at hq
    subst hq
    cases hadd : addM Q.tx (junk Q.lastKeyPos) Q.sec.toNat (Q.ins, Q.outs) k0 v0 with
    | ub => exact Or.inr ⟨rfl, hu hadd⟩
    | ok y =>
      obtain ⟨res, ms'⟩ := y
      exact Or.inl ⟨res, ms', rfl, hx _ _ hadd⟩
  | stopped q' hc hq' _ =>
    rw [hrd] at hc
    rcases hc with hc | ⟨kb, r, hc, hne, h⟩
    · cases hc
    · cases hc
      exact absurd hrd2 (h _ _)
  | more q' n hc =>
    rw [hrd] at hc
    rcases hc with hc | ⟨kb, r, hc, hne, h⟩
    · cases hc
    · cases hc
      rw [hrd2] at h
      cases h

end PSBT

/-- A derivation entry whose key is no public key leaves an entry that has not been initialised. -/
theorem addDerivation_bad {junk : Bytes} {ds : List Derivation} {c : UInt8} {s va : Bytes} (hl : s.length = 33 ∨ s.length = 65)
    (hj : junk.length = 65) (hb : (ECPoint.fromSec junk {} s).1.status ≠ .done) :
    ds.length = 255 ∧ addDerivation junk ds (varBytes (c :: s)) va = .ub ∨
      ds.length ≠ 255 ∧ ∃ pub, addDerivation junk ds (varBytes (c :: s)) va = .ok (-1, ds ++ [{ pubkey := pub }]) := by
  have e : varBytes (c :: s) = UInt8.ofNat (s.length + 1) :: c :: s := by
    unfold varBytes
    rw [compactSize_small (by rw [List.length_cons]; omega)]
    rfl
  rw [e]
  unfold addDerivation
  rw [if_neg (by simp only [List.length_cons]; omega)]
  simp only [List.drop_succ_cons, List.drop_zero]
  rw [if_neg (ECPoint.fromSec_defined junk hj s), if_pos hb]
  split_ifs with h
  · exact Or.inl ⟨h, rfl⟩
  · exact Or.inr ⟨h, _, rfl⟩

theorem PSBT.release_ub_in {p : PSBT} {i : Nat} {m : InMeta} (hi : i < p.tx.txIns.length) (hm : p.ins[i]? = some m) {d : Derivation} (hd : d ∈ m.derivations)
    (hr : d.ready = false) : p.release = .ub := by
  unfold PSBT.release
  rw [if_neg]
  rintro ⟨-, -, h, -⟩
  rw [List.all_eq_true] at h
  have := h m (List.mem_of_getElem? (i := i) (by rw [List.getElem?_take_of_lt hi]; exact hm))
  rw [List.all_eq_true] at this
  have := this d hd
  rw [hr] at this
  cases this

theorem PSBT.release_ub_out {p : PSBT} {i : Nat} {m : OutMeta} (hi : i < p.tx.txOuts.length) (hm : p.outs[i]? = some m) {d : Derivation} (hd : d ∈ m.derivations)
    (hr : d.ready = false) : p.release = .ub := by
  unfold PSBT.release
  rw [if_neg]
  rintro ⟨-, -, -, h⟩
  rw [List.all_eq_true] at h
  have := h m (List.mem_of_getElem? (i := i) (by rw [List.getElem?_take_of_lt hi]; exact hm))
  rw [List.all_eq_true] at this
  have := this d hd
  rw [hr] at this
  cases this

/-- C77: a derivation entry for which the bytes `s` after the key code (33 or 65 of them) are no public key. The document up to there is
well-formed: `pre` are the complete maps, `qs1` the pairs of the map in which the entry stands; code 6 in inputs, 2 in outputs. Whatever follows,
parsing ends FAILED, and destroying the object is undefined behaviour; parsing is undefined already if it is the 256th entry. -/
theorem C77_bad_key (junk : Nat → Bytes) (hj : ∀ n, (junk n).length = 65) {p : PSBT} (hp : p.Clean) {d : PsbtDoc} (hd : d.Ok) {pre post : List (List Pair)} {qs1 qs2 : List Pair}
    (hm : d.maps = pre ++ (qs1 ++ qs2) :: post) (h1 : 1 ≤ pre.length) {c : UInt8} (hc : c = if pre.length ≤ d.tx.ins.length then 6 else 2) {s v : Bytes}
    (hl : s.length = 33 ∨ s.length = 65) (hb : ∀ j, (ECPoint.fromSec j {} s).1.status ≠ .done) (hv : v.length < 2 ^ 31) (rest : Bytes) {q : PSBT}
    (hq : q = (PSBT.fromStream junk p (.of (psbtMagic ++ pairBytes ([0], txBytes d.tx) ++ (mapsBytes pre ++ (qs1.flatMap pairBytes ++ (pairBytes (c :: s, v) ++ rest)))))).1) :
    if entries c qs1 = 255 then q.status = .ub else q.status = .failed ∧ q.release = .ub := by
  obtain ⟨t, ms, ha, hh⟩ := PSBT.accepts_of_ok junk hp hd
  have hls := ha.sections
  rw [hm] at ha
  obtain ⟨Q, f, br, e, hk, hvr, hsec, hlt, ht, hi, ho, hmeta⟩ := PSBT.before_pair junk hp ha (pairBytes (c :: s, v) ++ rest)
  have hmeta := hmeta hj
  rw [e] at hq
  have hx := hh { ({} : PSBT) with tx := t, ins := ms.1, outs := ms.2 } rfl rfl rfl
  have n1 : t.txIns.length = d.tx.ins.length := hx.tx.ins.length_eq
  have hle : pre.length < 1 + t.txIns.length + t.txOuts.length := by
    rw [hm, List.length_append, List.length_cons] at hls
    have : (UInt8.ofNat (1 + t.txIns.length + t.txOuts.length)).toNat ≤ 1 + t.txIns.length + t.txOuts.length := by
      rw [UInt8.toNat_ofNat']; exact Nat.mod_le _ _
    omega
  have ev : varBytes (c :: s) = UInt8.ofNat (s.length + 1) :: c :: s := by
    unfold varBytes
    rw [compactSize_small (by rw [List.length_cons]; omega)]
    rfl
  have hpk : peek (varBytes (c :: s)) (dataPos (varBytes (c :: s))) = .ok c := by
    have : dataPos (varBytes (c :: s)) = 1 := by
      unfold dataPos
      rw [lenVarIntN_eq _ (by rw [ev]; simp only [List.length_cons]; omega), compactSize_small (by rw [ev]; simp only [List.length_cons]; omega)]
      rfl
    rw [this, ev]
    rfl
  have key : entries c qs1 = 255 ∧ PSBT.addM Q.tx (junk Q.lastKeyPos) Q.sec.toNat (Q.ins, Q.outs) (c :: s) v = .ub ∨
      entries c qs1 ≠ 255 ∧ ∃ ms', PSBT.addM Q.tx (junk Q.lastKeyPos) Q.sec.toNat (Q.ins, Q.outs) (c :: s) v = .ok (-1, ms') ∧
        ∀ q : PSBT, q.tx = Q.tx → q.ins = ms'.1 → q.outs = ms'.2 → q.release = .ub := by
    unfold PSBT.addM
    rw [hsec, ht, if_neg (by omega), hpk, C.bind_ok]
    dsimp only
    by_cases hin : pre.length ≤ d.tx.ins.length
    · rw [if_pos hin] at hc
      subst hc
      rw [if_pos (by omega), List.getElem?_eq_getElem (by omega : pre.length - 1 < Q.ins.length), List.getElem?_eq_getElem (by omega : pre.length - 1 < t.txIns.length)]
      dsimp only
      unfold InMeta.add
      rw [if_neg (by decide), if_neg (by decide), if_neg (by decide), if_neg (by decide), if_neg (by decide), if_pos rfl]
      have hcount := (hmeta.inNow _ _ (List.getElem?_eq_getElem (by omega : pre.length - 1 < Q.ins.length)) (by omega)).keys
      rcases addDerivation_bad (junk := junk Q.lastKeyPos) (ds := Q.ins[pre.length - 1].derivations) (c := 6) (va := varBytes v) hl (hj _) (hb _) with ⟨h0, h⟩ | ⟨h0, pub, h⟩
      · rw [h]; exact Or.inl ⟨by rw [← hcount]; exact h0, rfl⟩
      · rw [h]
        refine Or.inr ⟨by rw [← hcount]; exact h0, _, rfl, fun q e1 e2 e3 => ?_⟩
        refine PSBT.release_ub_in (i := pre.length - 1) (by rw [e1]; omega) (by rw [e2]; exact List.getElem?_set_self (by omega)) (d := { pubkey := pub }) ?_ rfl
        simp
    · rw [if_neg hin] at hc
      subst hc
      rw [if_neg (by omega), List.getElem?_eq_getElem (by omega : pre.length - 1 - t.txIns.length < Q.outs.length)]
      dsimp only
      unfold OutMeta.add
      rw [if_neg (by decide), if_neg (by decide), if_pos rfl]
      have hcount := (hmeta.outNow _ _ (List.getElem?_eq_getElem (by omega : pre.length - 1 - t.txIns.length < Q.outs.length)) (by omega)).keys
      rcases addDerivation_bad (junk := junk Q.lastKeyPos) (ds := Q.outs[pre.length - 1 - t.txIns.length].derivations) (c := 2) (va := varBytes v) hl (hj _) (hb _) with ⟨h0, h⟩ | ⟨h0, pub, h⟩
      · rw [h]; exact Or.inl ⟨by rw [← hcount]; exact h0, rfl⟩
      · rw [h]
        refine Or.inr ⟨by rw [← hcount]; exact h0, _, rfl, fun q e1 e2 e3 => ?_⟩
        refine PSBT.release_ub_out (i := pre.length - 1 - t.txIns.length) (by rw [e1]; omega) (by rw [e3]; exact List.getElem?_set_self (by omega)) (d := { pubkey := pub }) ?_ rfl
        simp
  have hg : PSBT.GoodPair (c :: s, v) := ⟨List.cons_ne_nil _ _, by show (c :: s).length < 2 ^ 31; rw [List.length_cons]; omega, hv⟩
  rcases key with ⟨h0, h⟩ | ⟨h0, ms', h, hr⟩
  · rw [if_pos h0]
    rcases PSBT.loop_refused junk f hg hk hvr hlt (by intro r m he; dsimp only at he; rw [h] at he; cases he) hq with ⟨r, m, he, -⟩ | ⟨-, he⟩
    · dsimp only at he
      rw [h] at he
      cases he
    · exact he
  · rw [if_neg h0]
    rcases PSBT.loop_refused junk f hg hk hvr hlt (by intro r m he; dsimp only at he; rw [h] at he; cases he; decide) hq with ⟨r, m, he, e1, e2, e3, e4⟩ | ⟨he, -⟩
    · dsimp only at he
      rw [h] at he
      cases he
      exact ⟨e1, hr q e2 e3 e4⟩
    · dsimp only at he
      rw [h] at he
      cases he

/-- C77: in particular when the first byte of the key is none of 2, 3, 4. -/
theorem C77_bad_prefix {b : UInt8} (s : Bytes) (hb : b < 2 ∨ b > 4) (j : Bytes) : (ECPoint.fromSec j {} (b :: s)).1.status ≠ .done := by
  unfold ECPoint.fromSec
  rw [ECPoint.fromStream_start j 0 b s rfl, if_pos hb]
  simp

example (junk : Nat → Bytes) (hj : ∀ n, (junk n).length = 65) (rest : Bytes) (q : PSBT) (hq : q = (PSBT.fromStream junk {} (.of (psbtMagic ++ pairBytes ([0], txBytes exDoc.tx) ++ (mapsBytes [exDoc.globals] ++
      (([] : List Pair).flatMap pairBytes ++ (pairBytes (6 :: 5 :: zeros 32, zeros 8) ++ rest)))))).1) : q.status = .failed ∧ q.release = .ub := by
  have hm : ∃ m post, exDoc.maps = [exDoc.globals] ++ ([] ++ m) :: post := ⟨_, _, rfl⟩
  obtain ⟨m, post, hm⟩ := hm
  have h := C77_bad_key junk hj PSBT.clean_fresh exDoc_ok hm (le_refl 1) (by simp [exDoc, exPsbtTx]) (Or.inl (by simp)) (C77_bad_prefix _ (by decide)) (by simp) rest hq
  exact h

example (junk : Nat → Bytes) : ∃ p q b, (PSBT.fromStream junk {} (.of (psbtMagic ++ [1, 0] ++ [61]))).1 = p ∧ p.status = .incomplete ∧ p.copy = .ok q ∧
    (PSBT.fromStream junk p (.of b)).1.status = .done ∧ (PSBT.fromStream junk p (.of b)).1.Holds exDoc ∧ (PSBT.fromStream junk q (.of b)).1.status ≠ .done := by
  have hv : varBytes (txBytes exDoc.tx) = [61] ++ txBytes exDoc.tx := by
    unfold varBytes
    rw [show exDoc.tx = exPsbtTx from rfl, exPsbtTx_length]
    rfl
  obtain ⟨p, q, h⟩ := C78_psbt_original junk exDoc exDoc_ok [61] (txBytes exDoc.tx ++ mapsBytes exDoc.maps) (by simp) (by
      rw [exDoc.bytes_eq]
      unfold pairBytes
      rw [hv, show varBytes [0] = [1, 0] from rfl]
      simp only [List.append_assoc]) (by
      rw [hv, List.length_append, show exDoc.tx = exPsbtTx from rfl, exPsbtTx_length]
      decide)
  exact ⟨p, q, _, h⟩

end UB
