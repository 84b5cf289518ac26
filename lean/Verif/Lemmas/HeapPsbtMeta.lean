import Verif.Lemmas.HeapLogic
import Verif.Lemmas.HeapTxProgram
import Verif.Lemmas.TxWhole
import Verif.Lemmas.WitRoom
import Verif.Lemmas.PSBTLife
import Verif.Model.Copy

/-! The metadata of a PSBT on the heap: derivations, signatures, scripts. -/

namespace UB
open Heap

namespace Heap

theorem BlockIf.pos {c : Prop} [Decidable c] {p : Nat} (h : c) : BlockIf c p = Block p := if_pos h
theorem BlockIf.neg {c : Prop} [Decidable c] {p : Nat} (h : ¬ c) : BlockIf c p = emp := if_neg h

theorem Does.freeIf {c : Prop} [Decidable c] {p : Nat} : Does (BlockIf c p) (if c then HM.free p else pure ()) (fun _ => emp) := by
  by_cases h : c
  · rw [BlockIf.pos h, if_pos h]
    exact Does.free
  · rw [BlockIf.neg h, if_neg h]
    exact Does.ret Stable.emp (fun h => h)

theorem Does.fromEmp {α : Type} {P : HProp} {x : HM α} {Q : α → HProp} (h : Does (emp ⋆ P) x Q) : Does P x Q := h.swap (emp_star _).symm

theorem Does.comm {α : Type} {P R : HProp} {x : HM α} {Q : α → HProp} (h : Does (R ⋆ P) x Q) : Does (P ⋆ R) x Q := h.swap (Star.comm _ _)

/-- Something that is true of the objects in memory. -/
theorem Does.keepFact {α : Type} {p : Prop} {P : HProp} {x : HM α} {Q : α → HProp} (hp : p) (h : Does P x Q) : Does P x (fun a => Heap.fact p ⋆ Q a) :=
  h.post (fun q => fact_star.2 ⟨hp, q⟩)

/-- A block that nothing refers to. -/
theorem BlockIf.lost {c : Prop} [Decidable c] {p : Nat} {h : Heap} {A : Finset Nat} (b : Block p h A) : (BlockIf c p ⋆ LostLe (if c then 0 else 1)) h A := by
  by_cases hc : c
  · rw [BlockIf.pos hc, if_pos hc, LostLe.zero_eq, star_emp]
    exact b
  · rw [BlockIf.neg hc, if_neg hc, emp_star]
    exact b.lostLe

theorem EachAt.snoc {α β : Type} {P : α → β → HProp} : ∀ (os : List α) (vs : List β) (o : α) (v : β), os.length = vs.length →
    EachAt P (os ++ [o]) (vs ++ [v]) = EachAt P os vs ⋆ P o v := by
  intro os
  induction os with
  | nil =>
    intro vs o v h
    cases vs with
    | nil =>
      show P o v ⋆ emp = emp ⋆ P o v
      rw [star_emp, emp_star]
    | cons _ _ => cases h
  | cons o' os ih =>
    intro vs o v h
    cases vs with
    | nil => cases h
    | cons v' vs =>
      show P o' v' ⋆ EachAt P (os ++ [o]) (vs ++ [v]) = (P o' v' ⋆ EachAt P os vs) ⋆ P o v
      rw [ih vs o v (by simpa using h), Star.assoc]

end Heap

/-! ### Derivations -/

def DerAt (o : HDerivation) (v : Derivation) : HProp := fact (o = ⟨v.pubkey, v.ready, v.fingerprint, o.ptr, v.path⟩) ⋆ BlockIf (v.path ≠ []) o.ptr

theorem DerAt.stable (o : HDerivation) (v : Derivation) : Stable (DerAt o v) := (Stable.fact _).star (Stable.blockIf _ _)

def DersAt (p : Nat) (os : List HDerivation) (vs : List Derivation) : HProp := BlockIf (vs ≠ []) p ⋆ EachAt DerAt os vs

theorem DersAt.stable (p : Nat) (os : List HDerivation) (vs : List Derivation) : Stable (DersAt p os vs) := (Stable.blockIf _ _).star (EachAt.stable DerAt.stable _ _)

theorem DersAt.length {p : Nat} {os : List HDerivation} {vs : List Derivation} {h : Heap} {A : Finset Nat} (a : DersAt p os vs h A) : os.length = vs.length := by
  obtain ⟨A1, A2, -, a, -⟩ := a
  exact a.length

theorem DersAt.block {p : Nat} {os : List HDerivation} {vs : List Derivation} {h : Heap} {A : Finset Nat} (a : DersAt p os vs h A) (hn : os.length > 0) :
    h.blocks p ≠ none := by
  have hl := a.length
  obtain ⟨A1, A2, a, -⟩ := a
  rw [BlockIf.pos (by intro c; rw [c, List.length_nil] at hl; omega)] at a
  exact a.1

theorem DersAt.null : DersAt 0 [] [] = emp := emp_star _

namespace HDerivation

theorem free_does (o : HDerivation) (v : Derivation) (hr : v.ready = true) : Does (DerAt o v) o.free (fun _ => emp) := by
  refine Does.fact fun e => ?_
  unfold free
  have e1 : o.ready = true := by rw [e]; exact hr
  have e2 : o.path = v.path := by rw [e]
  rw [e1, if_neg (by simp), e2]
  have : (if v.path.length > 0 then HM.free o.ptr else pure ()) = (if v.path ≠ [] then HM.free o.ptr else pure ()) :=
    if_congr (List.length_pos_iff) rfl rfl
  rw [this]
  exact Does.freeIf

theorem freeAll_does (p : Nat) (os : List HDerivation) (vs : List Derivation) (hr : Derivation.AllReady vs) : Does (DersAt p os vs) (freeAll p os) (fun _ => emp) := by
  refine Does.know (fun a => a.length) fun hl => ?_
  unfold freeAll
  by_cases hv : vs = []
  · subst hv
    have : os = [] := List.length_eq_zero_iff.1 hl
    subst this
    rw [if_neg (by simp)]
    refine Does.ret (DersAt.stable _ _ _) (fun h => ?_)
    unfold DersAt at h
    rw [BlockIf.neg (by simp), emp_star] at h
    exact h
  · have hp : os.length > 0 := by rw [hl]; exact List.length_pos_iff.2 hv
    rw [if_pos hp]
    refine (Does.access (DersAt.stable p os vs) (fun a hn => a.block hn)).bind fun _ => ?_
    unfold DersAt
    rw [Star.comm]
    refine (Does.forEach DerAt.stable free_does os vs hr).step (EachAt.stable DerAt.stable _ _) (Stable.blockIf _ _) fun _ => ?_
    rw [emp_star, BlockIf.pos hv]
    exact Does.free

theorem copy_does (o : HDerivation) (v : Derivation) (hr : v.ready = true) :
    Does (DerAt o v) o.copy (fun o' => DerAt o' v ⋆ LostLe v.hollow ⋆ DerAt o v) := by
  refine Does.fact fun e => ?_
  have e1 : o.ready = true := by rw [e]; exact hr
  have e2 : o.path = v.path := by rw [e]
  unfold copy
  rw [e1, if_neg (by simp)]
  refine Does.fromEmp (Does.new.step Stable.emp (Stable.blockIf _ _) fun q => ?_)
  refine Does.comm ?_
  refine ((Does.access (p := o.ptr) (n := o.path.length) (Stable.blockIf (v.path ≠ []) o.ptr) (fun a hn => ?_)).step (Stable.blockIf _ _) (Stable.block _) fun _ => ?_)
  · rw [e2] at hn
    rw [BlockIf.pos (List.length_pos_iff.1 hn)] at a
    exact a.1
  · refine Does.ret ((Stable.blockIf _ _).star (Stable.block _)) (fun {h A} a => ?_)
    have b : (BlockIf (v.path ≠ []) o.ptr ⋆ BlockIf (v.path ≠ []) q ⋆ LostLe (if v.path ≠ [] then 0 else 1)) h A := star_mono (fun h => h) BlockIf.lost a
    have c : (if v.path ≠ [] then 0 else 1) = v.hollow := by
      unfold Derivation.hollow
      by_cases hv : v.path = [] <;> simp [hv, hr]
    rw [c] at b
    unfold DerAt
    rw [fact_true e, emp_star, fact_true (by rw [e2]; rw [e] at *; simp_all), emp_star]
    have e3 : BlockIf (v.path ≠ []) o.ptr ⋆ BlockIf (v.path ≠ []) q ⋆ LostLe v.hollow = BlockIf (v.path ≠ []) q ⋆ LostLe v.hollow ⋆ BlockIf (v.path ≠ []) o.ptr := by
      ac_rfl
    rw [← e3]
    exact b

theorem copyAll_does (p : Nat) (os : List HDerivation) (vs : List Derivation) (hr : Derivation.AllReady vs) :
    Does (DersAt p os vs) (copyAll p os) (fun r => DersAt r.1 r.2 vs ⋆ LostLe (Derivation.hollows vs) ⋆ DersAt p os vs) := by
  refine Does.know (fun a => a.length) fun hl => ?_
  unfold copyAll
  refine Does.fromEmp (Does.new.step Stable.emp (DersAt.stable _ _ _) fun q => ?_)
  refine Does.comm ?_
  refine (Does.access (DersAt.stable p os vs) (fun a hn => a.block hn)).step (DersAt.stable _ _ _) (Stable.block _) fun _ => ?_
  unfold DersAt
  rw [Star.comm (BlockIf _ _), Star.assoc]
  have sb : Stable (BlockIf (vs ≠ []) p ⋆ Block q) := (Stable.blockIf _ _).star (Stable.block _)
  refine (Does.mapEach DerAt.stable DerAt.stable (g := fun v => v) copy_does os vs hr).step (EachAt.stable DerAt.stable _ _) sb fun os' => ?_
  have se := EachAt.stable DerAt.stable
  refine Does.ret (((se _ _).star ((Stable.lostLe _).star (se _ _))).star sb) (fun {h A} a => ?_)
  rw [List.map_id'] at a
  have e : (EachAt DerAt os' vs ⋆ LostLe (vs.map Derivation.hollow).sum ⋆ EachAt DerAt os vs) ⋆ BlockIf (vs ≠ []) p ⋆ Block q =
      Block q ⋆ EachAt DerAt os' vs ⋆ LostLe (vs.map Derivation.hollow).sum ⋆ EachAt DerAt os vs ⋆ BlockIf (vs ≠ []) p := by ac_rfl
  rw [e] at a
  have b : ((BlockIf (vs ≠ []) q ⋆ LostLe (if vs ≠ [] then 0 else 1)) ⋆ EachAt DerAt os' vs ⋆ LostLe (vs.map Derivation.hollow).sum ⋆ EachAt DerAt os vs ⋆ BlockIf (vs ≠ []) p) h A :=
    star_mono BlockIf.lost (fun h => h) a
  have e2 : (BlockIf (vs ≠ []) q ⋆ LostLe (if vs ≠ [] then 0 else 1)) ⋆ EachAt DerAt os' vs ⋆ LostLe (vs.map Derivation.hollow).sum ⋆ EachAt DerAt os vs ⋆ BlockIf (vs ≠ []) p =
      (BlockIf (vs ≠ []) q ⋆ EachAt DerAt os' vs) ⋆ (LostLe (if vs ≠ [] then 0 else 1) ⋆ LostLe (vs.map Derivation.hollow).sum) ⋆ EachAt DerAt os vs ⋆ BlockIf (vs ≠ []) p := by ac_rfl
  rw [e2] at b
  refine star_mono (fun h => h) (star_mono (fun l => LostLe.mono ?_ (LostLe.add l)) (fun h => h)) b
  unfold Derivation.hollows
  by_cases hv : vs = [] <;> simp [hv]

theorem extend_does (p : Nat) (os : List HDerivation) (vs : List Derivation) :
    Does (DersAt p os vs) (extend p os) (fun q => Block q ⋆ EachAt DerAt os vs) := by
  refine Does.know (fun a => a.length) fun hl => ?_
  unfold extend
  by_cases hv : vs = []
  · subst hv
    have : os = [] := List.length_eq_zero_iff.1 hl
    subst this
    rw [if_pos (by simp)]
    unfold DersAt
    rw [BlockIf.neg (by simp)]
    exact Does.new.frame Stable.emp (EachAt.stable DerAt.stable _ _)
  · have hp : os.length ≠ 0 := by rw [hl]; exact (List.length_pos_iff.2 hv).ne'
    rw [if_neg hp]
    refine Does.fromEmp (Does.new.step Stable.emp (DersAt.stable _ _ _) fun q => ?_)
    refine Does.comm ?_
    refine (Does.access (DersAt.stable p os vs) (fun a hn => a.block hn)).step (DersAt.stable _ _ _) (Stable.block _) fun _ => ?_
    unfold DersAt
    rw [BlockIf.pos hv, Star.assoc]
    refine Does.free.step (Stable.block _) ((EachAt.stable DerAt.stable _ _).star (Stable.block _)) fun _ => ?_
    rw [emp_star]
    refine Does.ret ((EachAt.stable DerAt.stable _ _).star (Stable.block _)) (fun h => ?_)
    rw [Star.comm]
    exact h

theorem load_pubkey {d e : Derivation} {va : Bytes} (h : d.load va = .ok e) : e.pubkey = d.pubkey := by
  unfold Derivation.load at h
  dsimp only at h
  obtain ⟨fp, -, h⟩ := C.ok_inv h
  obtain ⟨path, -, h⟩ := C.ok_inv h
  injection h with h
  rw [← h]

theorem fill_does (d : HDerivation) (va : Bytes) (e : Derivation) (he : Derivation.load { pubkey := d.pubkey } va = .ok e) :
    Does emp (d.fill va) (fun o => DerAt o e ⋆ LostLe e.hollow) := by
  unfold fill
  refine (Does.lift he).bind fun b => ?_
  rw [← star_emp (Heap.fact _)]
  refine Does.fact fun hb => ?_
  subst hb
  refine Does.new.bind fun q => Does.ret (Stable.block q) (fun {h A} a => ?_)
  have hr := PSBT.load_ready he
  unfold DerAt
  rw [fact_true (by rw [load_pubkey he, hr]), emp_star]
  have c : (if b.path ≠ [] then 0 else 1) = b.hollow := by
    unfold Derivation.hollow
    by_cases hv : b.path = [] <;> simp [hv, hr]
  rw [← c]
  exact BlockIf.lost a

theorem _root_.UB.Derivation.added_self (ds : List Derivation) : Derivation.added ds ds = 0 := by
  unfold Derivation.added
  rw [List.drop_length]
  rfl

theorem _root_.UB.Derivation.added_one (ds : List Derivation) (d : Derivation) : Derivation.added ds (ds ++ [d]) = d.hollow := by
  unfold Derivation.added
  rw [List.drop_left]
  simp

theorem DersAt.snoc {q : Nat} {os : List HDerivation} {vs : List Derivation} (hl : os.length = vs.length) (o : HDerivation) (v : Derivation) :
    DersAt q (os ++ [o]) (vs ++ [v]) = Block q ⋆ EachAt DerAt os vs ⋆ DerAt o v := by
  unfold DersAt
  rw [BlockIf.pos (by simp), EachAt.snoc os vs o v hl]

theorem add_does (junk : Bytes) (p : Nat) (os : List HDerivation) (vs vs' : List Derivation) (ka va : Bytes) (r : Int)
    (e : addDerivation junk vs ka va = .ok (r, vs')) :
    Does (DersAt p os vs) (add junk p os ka va) (fun x => fact (x.1 = r) ⋆ DersAt x.2.1 x.2.2 vs' ⋆ LostLe (Derivation.added vs vs')) := by
  refine Does.know (fun a => a.length) fun hl => ?_
  unfold add
  unfold addDerivation at e
  by_cases h1 : ka.length ≠ 35 ∧ ka.length ≠ 67
  · rw [if_pos h1] at e ⊢
    injection e with e
    injection e with e1 e2
    subst e1 e2
    refine Does.ret (DersAt.stable _ _ _) (fun h => ?_)
    rw [Derivation.added_self, LostLe.zero_eq, star_emp, fact_true rfl, emp_star]
    exact h
  rw [if_neg h1] at e ⊢
  rw [hl]
  by_cases h2 : vs.length = 255
  · rw [if_pos h2] at e; cases e
  rw [if_neg h2] at e ⊢
  refine (extend_does p os vs).bind fun q => ?_
  dsimp only at e ⊢
  have se := (Stable.block q).star (EachAt.stable DerAt.stable os vs)
  by_cases h3 : (ECPoint.fromSec junk {} (ka.drop 2)).1.status = .ub
  · rw [if_pos h3] at e; cases e
  rw [if_neg h3] at e ⊢
  by_cases h4 : (ECPoint.fromSec junk {} (ka.drop 2)).1.status ≠ .done
  · rw [if_pos h4] at e ⊢
    injection e with e
    injection e with e1 e2
    subst e1 e2
    refine Does.ret se (fun h => ?_)
    rw [Derivation.added_one, DersAt.snoc hl, fact_true rfl, emp_star, show Derivation.hollow { pubkey := (ECPoint.fromSec junk {} (ka.drop 2)).1 } = 0 from rfl,
      LostLe.zero_eq, star_emp]
    unfold DerAt
    rw [fact_true rfl, emp_star, BlockIf.neg (by simp), star_emp]
    exact h
  rw [if_neg h4] at e ⊢
  obtain ⟨d, hd, e⟩ := C.ok_inv e
  injection e with e
  injection e with e1 e2
  subst e1 e2
  refine Does.fromEmp ?_
  refine (fill_does { pubkey := (ECPoint.fromSec junk {} (ka.drop 2)).1 } va d hd).step Stable.emp se fun o => ?_
  refine Does.ret (((DerAt.stable _ _).star (Stable.lostLe _)).star se) (fun h => ?_)
  rw [Derivation.added_one, DersAt.snoc hl, fact_true rfl, emp_star]
  have e : (DerAt o d ⋆ LostLe d.hollow) ⋆ Block q ⋆ EachAt DerAt os vs = (Block q ⋆ EachAt DerAt os vs ⋆ DerAt o d) ⋆ LostLe d.hollow := by ac_rfl
  rw [← e]
  exact h

end HDerivation

/-! ### Scripts and outputs in metadata -/

/-- A script that is not in the middle of being parsed. -/
def Script.Settled (v : Script) : Prop := (v.status = .done ∧ (v.scriptLen = 0 → v.arr = [])) ∨ v.status = .failed

theorem Script.Settled.fits {v : Script} (hd : v.Settled) (h : v.Sized) : v.Fits := by
  refine ⟨h.1 ?_, h.2⟩
  rcases hd with ⟨hd, -⟩ | hd <;> simp [hd]

theorem ScriptAt.small' {h : Heap} (w : h.Wf) (g : h.Generous) {o : HScript} {v : Script} {A : Finset Nat} (a : ScriptAt o v h A) (hd : v.Settled) : v.scriptLen < 2 ^ 63 := by
  obtain ⟨-, a, hs, -, -⟩ := a
  have hf := (hd.fits hs).1
  by_cases h0 : v.arr = []
  · rw [h0] at hf
    simp only [List.length_nil] at hf
    omega
  · exact Nat.lt_of_le_of_lt hf (w.small g.bounded _ _ (a.block h0))

theorem HScript.fresh_does (o : HScript) (v : Script) (hd : v.Settled) :
    Does (ScriptAt o v) (HM.obj (({} : HScript).assign o)) (fun o' => ScriptAt o' (({} : Script).assign v) ⋆ ScriptAt o v) := by
  refine Does.make (ScriptAt.stable o v) fun {h A} w g a => ?_
  obtain ⟨o', v', h', B, e, a', -, s, hg⟩ := HScript.assign_at w (ScriptAt.null h) a rfl (hd.fits a.2.2.1) (by simp)
  rw [hg g (a.small' w g hd)] at a'
  exact ⟨o', h', B, e, a', s⟩

theorem HScript.parse_does (o : HScript) (v : Script) (s : PStream) (hub : (v.fromStream s).1.status ≠ .ub) :
    Does (ScriptAt o v) (HM.parse (o.fromStream s)) (fun x => fact (x.2 = (v.fromStream s).2) ⋆ ScriptAt x.1 (v.fromStream s).1) := by
  refine Does.parse (r := (v.fromStream s).2.1) (s' := (v.fromStream s).2.2) (Q := fun o' => ScriptAt o' (v.fromStream s).1) fun w g a => ?_
  exact HScript.fromStream_at w g a rfl hub

theorem HTxOut.fresh_does (o : HTxOut) (v : TxOut) (hd : v.scriptPubkey.status = .done) :
    Does (OutAt o v) (HM.obj (({} : HTxOut).assign o)) (fun o' => OutAt o' (({} : TxOut).assign v) ⋆ OutAt o v) := by
  refine Does.make (OutAt.stable o v) fun {h A} w g a => ?_
  obtain ⟨o', v', h', B, e, a', -, s, hg⟩ := HTxOut.fresh_at w a (a.2.2.2.1.fits hd)
  rw [hg g (a.small w g hd)] at a'
  exact ⟨o', h', B, e, a', s⟩

theorem HTxOut.parse_does (o : HTxOut) (v : TxOut) (s : PStream) (hub : (v.fromStream s).1.status ≠ .ub) (hq : v.status = .done → v.scriptPubkey.status = .done) :
    Does (OutAt o v) (HM.parse (o.fromStream s)) (fun x => fact (x.2 = (v.fromStream s).2) ⋆ OutAt x.1 (v.fromStream s).1) := by
  refine Does.parse (r := (v.fromStream s).2.1) (s' := (v.fromStream s).2.2) (Q := fun o' => OutAt o' (v.fromStream s).1) fun w g a => ?_
  exact HTxOut.fromStream_at w g a rfl hub hq

/-! ### What is found in memory -/

theorem HScript.load_at {h : Heap} (w : h.Wf) {o : HScript} {v : Script} {A : Finset Nat} (a : ScriptAt o v h A) (hd : v.status = .done) : o.load h = .ok v := by
  obtain ⟨eo, a, hs, -, -⟩ := a
  have hf := (hs.fits hd).1
  unfold HScript.load
  rcases a with ⟨h0, hb⟩ | hb
  · have : h.blocks o.ptr = none := by rw [h0]; exact w.null
    rw [this]
    dsimp only
    have hl : o.scriptLen = 0 := by
      rw [eo]
      show v.scriptLen = 0
      rw [hb] at hf
      simpa using hf
    rw [if_neg (by rw [hl, h0]; simp), eo, ← hb]
    rfl
  · rw [hb]
    dsimp only
    rw [eo]
    rfl

theorem HWitness.load_at {h : Heap} {o : HWitness} {v : Witness × Bool} {A : Finset Nat} (a : WitAt o v h A) : o.load h = .ok v.1 := by
  obtain ⟨eo, a, -, -⟩ := a
  unfold HWitness.load
  dsimp only
  by_cases hb : v.1.arr = []
  · have : o.witnessLen = 0 := by rw [eo]; show v.1.arr.length = 0; rw [hb]; rfl
    rw [if_pos this, eo, ← hb]
    rfl
  · have : o.witnessLen ≠ 0 := by rw [eo]; exact fun c => hb (List.length_eq_zero_iff.1 c)
    rw [if_neg this, a.block hb, eo]
    rfl

theorem HTxIn.load_at {h : Heap} (w : h.Wf) {o : HTxIn} {v : TxIn × Bool} {A : Finset Nat} (a : InAt o v h A) (hd : v.1.scriptSig.status = .done) : o.load h = .ok v.1 := by
  obtain ⟨eo, A1, A2, h1, h2, -⟩ := a
  unfold HTxIn.load
  rw [HScript.load_at w h1 hd, C.bind_ok, HWitness.load_at h2, C.bind_ok, eo]
  rfl

theorem HTxOut.load_at {h : Heap} (w : h.Wf) {o : HTxOut} {v : TxOut} {A : Finset Nat} (a : OutAt o v h A) (hd : v.scriptPubkey.status = .done) : o.load h = .ok v := by
  obtain ⟨eo, a⟩ := a
  unfold HTxOut.load
  rw [HScript.load_at w a hd, C.bind_ok, eo]
  rfl

theorem loadAll_at {α β γ : Type} {P : α → β → HProp} {f : α → Heap → C γ} {g : β → γ} {h : Heap} : ∀ {os : List α} {vs : List β} {A : Finset Nat}, EachAt P os vs h A →
    (∀ v ∈ vs, ∀ o A, P o v h A → f o h = .ok (g v)) → loadAll f os h = .ok (vs.map g) := by
  intro os
  induction os with
  | nil =>
    intro vs A e hf
    cases vs with
    | nil => rfl
    | cons _ _ => exact e.elim
  | cons o os ih =>
    intro vs A e hf
    cases vs with
    | nil => exact e.elim
    | cons v vs =>
      obtain ⟨A1, A2, h1, h2, -⟩ := e
      rw [loadAll, hf v (by simp) o A1 h1, C.bind_ok, ih h2 (fun v hv => hf v (by simp [hv])), C.bind_ok]
      rfl

theorem HTx.load_at {h : Heap} (w : h.Wf) {o : HTx} {v : Tx} {u : List (TxIn × Bool)} {A : Finset Nat} (a : TxAt o v u h A) (hd : v.AllDone) : o.load h = .ok v := by
  obtain ⟨eo, eu, A1, A2, h1, h2, -⟩ := a
  obtain ⟨A1', e1, -⟩ := h1.each
  obtain ⟨A2', e2, -⟩ := h2.each
  unfold HTx.load
  rw [h1.access, C.bind_ok, h2.access, C.bind_ok,
    loadAll_at (g := Prod.fst) e1 (fun v hv o A a => HTxIn.load_at w a (hd.1 v.1 (by rw [eu]; exact List.mem_map_of_mem hv))), C.bind_ok,
    loadAll_at (g := id) e2 (fun v hv o A a => HTxOut.load_at w a (hd.2 v hv)), C.bind_ok, List.map_id, ← eu, eo]
  rfl

/-! ### Transactions -/

/-- A transaction without an emptied witness. -/
def CTxAt (o : HTx) (v : Tx) : HProp := fun h A => ∃ u, TxAt o v u h A ∧ ∀ i ∈ u, ¬ HTxIn.stale i

theorem CTxAt.stable (o : HTx) (v : Tx) : Stable (CTxAt o v) := Stable.ex fun u => (TxAt.stable o v u).and _

/-- What parsing a transaction needs and keeps. -/
def Tx.Sound (v : Tx) : Prop := v.Closed ∧ v.Steady ∧ (v.status = .done ∨ v.Roomy)

theorem Tx.Sound.parse {v : Tx} (h : v.Sound) (s : PStream) : (v.fromStream s).1.Sound :=
  ⟨Tx.fromStream_closed v s h.1, Tx.fromStream_steady v s h.2.1, Or.inr (Tx.fromStream_roomy v s h.2.2)⟩

theorem Tx.Sound.null : ({} : Tx).Sound := by
  refine ⟨⟨⟨?_, ?_⟩, fun _ => ⟨?_, ?_⟩⟩, (fun c => by cases c), Or.inl rfl⟩ <;> intro i hi <;> cases hi

theorem Tx.Sound.all {v : Tx} (h : v.Sound) (hd : v.status = .done) : v.AllDone := h.1.2 hd

namespace HTx

theorem facts {o : HTx} {v : Tx} {h : Heap} {A : Finset Nat} (a : CTxAt o v h A) :
    o.status = v.status ∧ o.txIns.length = v.txIns.length ∧ o.txOuts.length = v.txOuts.length := by
  obtain ⟨u, a, -⟩ := a
  obtain ⟨eo, eu, A1, A2, h1, h2, -⟩ := a
  refine ⟨by rw [eo], ?_, h2.length⟩
  rw [h1.length, eu, List.length_map]

theorem parse_does (o : HTx) (v : Tx) (hs : v.Sound) (s : PStream) (hub : (v.fromStream s).1.status ≠ .ub) :
    Does (CTxAt o v) (HM.parse (o.fromStream s)) (fun x => fact (x.2 = (v.fromStream s).2) ⋆ CTxAt x.1 (v.fromStream s).1 ⋆ LostLe (v.fromStream s).1.zeroCounts) := by
  refine Does.parse (r := (v.fromStream s).2.1) (s' := (v.fromStream s).2.2) (Q := fun o' => CTxAt o' (v.fromStream s).1 ⋆ LostLe (v.fromStream s).1.zeroCounts) fun w g a => ?_
  obtain ⟨u, a, hu⟩ := a
  have hr := Tx.fromStream_roomy v s hs.2.2
  obtain ⟨o', u', h', B, E, e, a', st, d, ns, c⟩ := HTx.fromStream_at w g a s hu hs.2.1 hub (fun i hi => (hr i hi).1.small)
  exact ⟨o', h', B ∪ E, e, ⟨B, E, ⟨u', a', ns⟩, ⟨fun q hq => st.live q (Finset.mem_union_right _ hq), c⟩, d, rfl⟩, st⟩

theorem destroy_does (o : HTx) (v : Tx) : Does (CTxAt o v) (HM.run o.destroy) (fun _ => emp) :=
  Does.run fun w ⟨_, a, hu⟩ => HTx.destroy_at w a hu

theorem assign_does (o oo : HTx) (v vo : Tx) (hd : vo.AllDone) :
    Does (CTxAt o v ⋆ CTxAt oo vo) (HM.obj (o.assign oo)) (fun o' => CTxAt o' vo.copy ⋆ LostLe vo.emptyArrays ⋆ CTxAt oo vo) := by
  rintro h A w g ⟨A1, A2, ⟨u, a, hu⟩, ⟨uo, ao, huo⟩, d, rfl⟩
  have hf : vo.AllFits := by
    obtain ⟨-, eu, D1, D2, h1, h2, -⟩ := ao
    obtain ⟨D1', e1, -⟩ := h1.each
    obtain ⟨D2', e2, -⟩ := h2.each
    refine ⟨?_, fun o ho => ?_⟩
    · rw [eu]
      refine fst_mem fun i hi => ?_
      obtain ⟨o, A', q⟩ := e1.each i hi
      obtain ⟨-, B1, B2, q, -⟩ := q
      exact q.2.2.1.fits (hd.1 i.1 (by rw [eu]; exact List.mem_map_of_mem hi))
    · obtain ⟨o', A', q⟩ := e2.each o ho
      exact q.2.2.2.1.fits (hd.2 o ho)
  obtain ⟨o', v', u', h', B, E, e, a', nd, st, dE, c, hg⟩ := HTx.assign_at w a ao hu hf d.symm
  obtain ⟨e1, e2⟩ := hg g (ao.small w g hd)
  rw [e1] at a'
  have l2 := (TxAt.stable oo vo uo).live ao
  have dB := st.apart w l2 d.symm
  refine ⟨o', h', (B ∪ E) ∪ A2, e, ?_, st.frame w A2 (fun q hq hc => Finset.disjoint_left.1 d hc hq) l2⟩
  show (CTxAt o' vo.copy ⋆ LostLe vo.emptyArrays ⋆ CTxAt oo vo) _ _
  rw [← Star.assoc]
  exact ⟨B ∪ E, A2, ⟨B, E, ⟨u', a', nd.2⟩, ⟨fun q hq => st.live q (Finset.mem_union_right _ hq), c.le⟩, dE, rfl⟩,
    ⟨uo, (TxAt.stable oo vo uo).keep w st ((TxAt.stable _ _ _).live a) d.symm ao, huo⟩, dB.symm, rfl⟩

/-- An output is assigned from an output of a transaction. -/
theorem takeOut_does (o : HTxOut) (v : TxOut) (t : HTx) (tv : Tx) {k : Nat} {ho : HTxOut} {vo : TxOut} (e1 : t.txOuts[k]? = some ho) (e2 : tv.txOuts[k]? = some vo)
    (hv : v.scriptPubkey.status = .done) (hd : vo.scriptPubkey.status = .done) :
    Does (OutAt o v ⋆ CTxAt t tv) (HM.obj (o.assign ho)) (fun o' => OutAt o' (v.assign vo) ⋆ CTxAt t tv) := by
  rintro h A w g ⟨A1, A2, a, at', d, rfl⟩
  have l2 := (CTxAt.stable t tv).live at'
  have at0 := at'
  obtain ⟨u, ⟨-, -, D1, D2, -, h2, -, rfl⟩, -⟩ := at'
  obtain ⟨D2', e', hsub⟩ := h2.each
  obtain ⟨vo', B1, B2, e3, q, -, rfl⟩ := e'.get e1
  rw [e2] at e3
  injection e3 with e3
  subst e3
  have dB : Disjoint B1 A1 := Finset.disjoint_of_subset_left (Finset.subset_union_left.trans (hsub.trans Finset.subset_union_right)) d.symm
  obtain ⟨o', v', h', B, e, a', -, st, hg⟩ := HTxOut.assign_at w a q hv (q.2.2.2.1.fits hd) dB
  rw [hg g (q.small w g hd)] at a'
  exact ⟨o', h', B ∪ (D1 ∪ D2), e, ⟨B, D1 ∪ D2, a', (CTxAt.stable t tv).keep w st ((OutAt.stable _ _).live a) d.symm at0, (st.apart w l2 d.symm).symm, rfl⟩,
    st.frame w _ (fun q hq hc => Finset.disjoint_left.1 d hc hq) l2⟩

end HTx

/-! ### Metadata of an input -/

/-- The objects in the metadata of an input. -/
def InMemAt (o : HInMeta) (v : InMeta) : HProp :=
  OutAt o.txOut v.txOut ⋆ ScriptAt o.redeemScript v.redeemScript ⋆ ScriptAt o.witnessScript v.witnessScript

def SigsAt (p : Nat) (os vs : List PartialSig) : HProp := fact (os = vs) ⋆ BlockIf (vs ≠ []) p

/-- The arrays of the metadata of an input. -/
def InDynAt (o : HInMeta) (v : InMeta) : HProp := DersAt o.derPtr o.ders v.derivations ⋆ SigsAt o.sigPtr o.sigs v.signatures

def InMetaAt (o : HInMeta) (v : InMeta) : HProp := InMemAt o v ⋆ InDynAt o v

theorem InMemAt.stable (o : HInMeta) (v : InMeta) : Stable (InMemAt o v) := (OutAt.stable _ _).star ((ScriptAt.stable _ _).star (ScriptAt.stable _ _))

theorem SigsAt.stable (p : Nat) (os vs : List PartialSig) : Stable (SigsAt p os vs) := (Stable.fact _).star (Stable.blockIf _ _)

theorem InDynAt.stable (o : HInMeta) (v : InMeta) : Stable (InDynAt o v) := (DersAt.stable _ _ _).star (SigsAt.stable _ _ _)

theorem InMetaAt.stable (o : HInMeta) (v : InMeta) : Stable (InMetaAt o v) := (InMemAt.stable o v).star (InDynAt.stable o v)

/-- Complete scripts. -/
structure InMeta.Whole (v : InMeta) : Prop where
  spk : v.txOut.scriptPubkey.status = .done
  redeem : v.redeemScript.Settled
  witness : v.witnessScript.Settled

theorem InMeta.Whole.null : ({} : InMeta).Whole := ⟨rfl, Or.inl ⟨rfl, fun _ => rfl⟩, Or.inl ⟨rfl, fun _ => rfl⟩⟩

/-- The copy. -/
def InMeta.fresh (v : InMeta) : InMeta :=
  { v with txOut := ({} : TxOut).assign v.txOut, redeemScript := ({} : Script).assign v.redeemScript, witnessScript := ({} : Script).assign v.witnessScript }

theorem SigsAt.free_does (p : Nat) (os vs : List PartialSig) : Does (SigsAt p os vs) (if os.length > 0 then HM.free p else pure ()) (fun _ => emp) := by
  refine Does.fact fun e => ?_
  subst e
  have : (if os.length > 0 then HM.free p else pure ()) = (if os ≠ [] then HM.free p else pure ()) := if_congr (List.length_pos_iff) rfl rfl
  rw [this]
  exact Does.freeIf

theorem SigsAt.access_does (p : Nat) (os vs : List PartialSig) : Does (SigsAt p os vs) (HM.access p os.length) (fun _ => SigsAt p os vs) := by
  refine Does.access (SigsAt.stable _ _ _) (fun {h A} a hn => ?_)
  unfold SigsAt at a
  rw [fact_star] at a
  obtain ⟨e, a⟩ := a
  rw [BlockIf.pos (by rw [← e]; exact List.length_pos_iff.1 hn)] at a
  exact a.1

namespace HInMeta

theorem destroy_at {h : Heap} {o : HInMeta} {v : InMeta} {A : Finset Nat} (w : h.Wf) (a : InMemAt o v h A) : ∃ h', o.destroy h = .ok h' ∧ Step h h' A ∅ := by
  obtain ⟨A1, A23, a1, ⟨A2, A3, a2, a3, d2, rfl⟩, d1, rfl⟩ := a
  rw [Finset.disjoint_union_right] at d1
  have l1 := (OutAt.stable _ _).live a1
  have l2 := (ScriptAt.stable _ _).live a2
  have l3 := (ScriptAt.stable _ _).live a3
  obtain ⟨h1, e1, s1⟩ := HScript.destroy_at w a3
  have a2' := (ScriptAt.stable _ _).keep w s1 l3 d2 a2
  have a1' := (OutAt.stable _ _).keep w s1 l3 d1.2 a1
  obtain ⟨h2, e2, s2⟩ := HScript.destroy_at s1.wf a2'
  have a1'' := (OutAt.stable _ _).keep s1.wf s2 ((ScriptAt.stable _ _).live a2') d1.1 a1'
  obtain ⟨h3, e3, s3⟩ := HTxOut.destroy_at s2.wf a1''
  refine ⟨h3, ?_, ?_⟩
  · unfold destroy
    rw [e1, C.bind_ok, e2, C.bind_ok, e3]
  · have s12 := s1.gone2 s2 w l2 d2.symm
    have s := s12.gone2 s3 w l1 (Finset.disjoint_union_left.2 ⟨d1.2.symm, d1.1.symm⟩)
    have e : (A3 ∪ A2) ∪ A1 = A1 ∪ (A2 ∪ A3) := by ac_rfl
    rwa [e] at s

theorem release_does (o : HInMeta) (v : InMeta) (hr : Derivation.AllReady v.derivations) : Does (InDynAt o v) o.release (fun _ => emp) := by
  refine (HDerivation.freeAll_does _ _ _ hr).step (DersAt.stable _ _ _) (SigsAt.stable _ _ _) fun _ => ?_
  rw [emp_star]
  exact SigsAt.free_does _ _ _

theorem assign_does (o : HInMeta) (v : InMeta) (hv : v.Whole) :
    Does (InMemAt o v) (assign o) (fun m => fact (m = { o with txOut := m.txOut, redeemScript := m.redeemScript, witnessScript := m.witnessScript }) ⋆
      InMemAt m v.fresh ⋆ InMemAt o v) := by
  unfold assign
  have s1 := OutAt.stable o.txOut v.txOut
  have s2 := ScriptAt.stable o.redeemScript v.redeemScript
  have s3 := ScriptAt.stable o.witnessScript v.witnessScript
  refine (HTxOut.fresh_does o.txOut v.txOut hv.spk).step s1 (s2.star s3) fun o1 => ?_
  have t1 := OutAt.stable o1 (({} : TxOut).assign v.txOut)
  refine Does.swap (P := ScriptAt o.redeemScript v.redeemScript ⋆ ScriptAt o.witnessScript v.witnessScript ⋆ OutAt o1 (({} : TxOut).assign v.txOut) ⋆ OutAt o.txOut v.txOut) ?_ (by ac_rfl)
  refine (HScript.fresh_does _ _ hv.redeem).step s2 (s3.star (t1.star s1)) fun o2 => ?_
  have t2 := ScriptAt.stable o2 (({} : Script).assign v.redeemScript)
  refine Does.swap (P := ScriptAt o.witnessScript v.witnessScript ⋆ OutAt o1 (({} : TxOut).assign v.txOut) ⋆ ScriptAt o2 (({} : Script).assign v.redeemScript) ⋆
    OutAt o.txOut v.txOut ⋆ ScriptAt o.redeemScript v.redeemScript) ?_ (by ac_rfl)
  refine (HScript.fresh_does _ _ hv.witness).step s3 (t1.star (t2.star (s1.star s2))) fun o3 => ?_
  have t3 := ScriptAt.stable o3 (({} : Script).assign v.witnessScript)
  refine Does.ret ((t3.star s3).star (t1.star (t2.star (s1.star s2)))) (fun {h A} a => ?_)
  rw [fact_star]
  refine ⟨rfl, ?_⟩
  have e : (ScriptAt o3 (({} : Script).assign v.witnessScript) ⋆ ScriptAt o.witnessScript v.witnessScript) ⋆ OutAt o1 (({} : TxOut).assign v.txOut) ⋆
      ScriptAt o2 (({} : Script).assign v.redeemScript) ⋆ OutAt o.txOut v.txOut ⋆ ScriptAt o.redeemScript v.redeemScript =
      (OutAt o1 (({} : TxOut).assign v.txOut) ⋆ ScriptAt o2 (({} : Script).assign v.redeemScript) ⋆ ScriptAt o3 (({} : Script).assign v.witnessScript)) ⋆
      (OutAt o.txOut v.txOut ⋆ ScriptAt o.redeemScript v.redeemScript ⋆ ScriptAt o.witnessScript v.witnessScript) := by ac_rfl
  rw [e] at a
  exact a

theorem copy_does (o : HInMeta) (v : InMeta) (hv : v.Whole ∧ Derivation.AllReady v.derivations) :
    Does (InMetaAt o v) (copy o) (fun m => InMetaAt m v.fresh ⋆ LostLe v.hollows ⋆ InMetaAt o v) := by
  unfold copy
  have sm := InMemAt.stable o v
  refine (assign_does o v hv.1).step sm (InDynAt.stable o v) fun m => ?_
  rw [Star.assoc]
  refine Does.fact fun em => ?_
  have e1 : m.derPtr = o.derPtr := by rw [em]
  have e2 : m.ders = o.ders := by rw [em]
  have e3 : m.sigPtr = o.sigPtr := by rw [em]
  have e4 : m.sigs = o.sigs := by rw [em]
  have tm := InMemAt.stable m v.fresh
  have sd := DersAt.stable o.derPtr o.ders v.derivations
  have sg := SigsAt.stable o.sigPtr o.sigs v.signatures
  unfold InDynAt
  refine Does.swap (P := DersAt o.derPtr o.ders v.derivations ⋆ SigsAt o.sigPtr o.sigs v.signatures ⋆ InMemAt m v.fresh ⋆ InMemAt o v) ?_ (by ac_rfl)
  rw [e1, e2]
  refine (HDerivation.copyAll_does _ _ _ hv.2).step sd (sg.star (tm.star sm)) fun r => ?_
  obtain ⟨p, ds⟩ := r
  dsimp only
  have td := DersAt.stable p ds v.derivations
  have rest := ((td.star ((Stable.lostLe (Derivation.hollows v.derivations)).star sd)).star (sg.star (tm.star sm)))
  refine Does.fromEmp (Does.new.step Stable.emp rest fun q => ?_)
  rw [e3, e4]
  refine Does.swap (P := SigsAt o.sigPtr o.sigs v.signatures ⋆ Block q ⋆ DersAt p ds v.derivations ⋆ LostLe (Derivation.hollows v.derivations) ⋆
    DersAt o.derPtr o.ders v.derivations ⋆ InMemAt m v.fresh ⋆ InMemAt o v) ?_ (by ac_rfl)
  have rest2 := (Stable.block q).star (td.star ((Stable.lostLe (Derivation.hollows v.derivations)).star (sd.star (tm.star sm))))
  refine (SigsAt.access_does _ _ _).step sg rest2 fun _ => ?_
  refine Does.ret (sg.star rest2) (fun {h A} a => ?_)
  have e : SigsAt o.sigPtr o.sigs v.signatures ⋆ Block q ⋆ DersAt p ds v.derivations ⋆ LostLe (Derivation.hollows v.derivations) ⋆
    DersAt o.derPtr o.ders v.derivations ⋆ InMemAt m v.fresh ⋆ InMemAt o v =
    Block q ⋆ SigsAt o.sigPtr o.sigs v.signatures ⋆ DersAt p ds v.derivations ⋆ LostLe (Derivation.hollows v.derivations) ⋆
    DersAt o.derPtr o.ders v.derivations ⋆ InMemAt m v.fresh ⋆ InMemAt o v := by ac_rfl
  rw [e] at a
  have es : o.sigs = v.signatures := by
    obtain ⟨B1, B2, -, ⟨B3, B4, b, -⟩, -⟩ := a
    exact (fact_star.1 b).1
  have b := star_mono (BlockIf.lost (c := v.signatures ≠ [])) (fun h => h) a
  have e' : (BlockIf (v.signatures ≠ []) q ⋆ LostLe (if v.signatures ≠ [] then 0 else 1)) ⋆ SigsAt o.sigPtr o.sigs v.signatures ⋆ DersAt p ds v.derivations ⋆
      LostLe (Derivation.hollows v.derivations) ⋆ DersAt o.derPtr o.ders v.derivations ⋆ InMemAt m v.fresh ⋆ InMemAt o v =
    (InMemAt m v.fresh ⋆ DersAt p ds v.derivations ⋆ BlockIf (v.signatures ≠ []) q) ⋆ (LostLe (Derivation.hollows v.derivations) ⋆ LostLe (if v.signatures ≠ [] then 0 else 1)) ⋆
      (InMemAt o v ⋆ DersAt o.derPtr o.ders v.derivations ⋆ SigsAt o.sigPtr o.sigs v.signatures) := by ac_rfl
  rw [e'] at b
  refine star_mono (fun h => ?_) (star_mono (fun l => LostLe.mono ?_ (LostLe.add l)) (fun h => h)) b
  · show (InMemAt m v.fresh ⋆ DersAt p ds v.derivations ⋆ SigsAt q o.sigs v.signatures) _ _
    unfold SigsAt
    rw [fact_true es, emp_star]
    exact h
  · unfold InMeta.hollows
    by_cases hs : v.signatures = [] <;> simp [hs]

theorem copySome_does (o : HInMeta) (v : InMeta) (hv : v.Whole ∧ Derivation.AllReady v.derivations) :
    Does (InMetaAt o v) (copySome o) (fun m => InMetaAt m v.fresh ⋆ LostLe v.hollowPaths ⋆ InMetaAt o v) := by
  unfold copySome
  have sm := InMemAt.stable o v
  refine (assign_does o v hv.1).step sm (InDynAt.stable o v) fun m => ?_
  rw [Star.assoc]
  refine Does.fact fun em => ?_
  have e1 : m.derPtr = o.derPtr := by rw [em]
  have e2 : m.ders = o.ders := by rw [em]
  have e3 : m.sigPtr = o.sigPtr := by rw [em]
  have e4 : m.sigs = o.sigs := by rw [em]
  have tm := InMemAt.stable m v.fresh
  have sd := DersAt.stable o.derPtr o.ders v.derivations
  have sg := SigsAt.stable o.sigPtr o.sigs v.signatures
  unfold InDynAt
  refine Does.swap (P := DersAt o.derPtr o.ders v.derivations ⋆ SigsAt o.sigPtr o.sigs v.signatures ⋆ InMemAt m v.fresh ⋆ InMemAt o v) ?_ (by ac_rfl)
  rw [e1, e2]
  have hcopy : Does (DersAt o.derPtr o.ders v.derivations) (HM.ifElse (o.ders.length > 0) (HDerivation.copyAll o.derPtr o.ders) (pure (o.derPtr, o.ders)))
      (fun r => DersAt r.1 r.2 v.derivations ⋆ LostLe v.hollowPaths ⋆ DersAt o.derPtr o.ders v.derivations) := by
    refine Does.know (fun a => a.length) fun hl => ?_
    unfold HM.ifElse
    by_cases hv' : v.derivations = []
    · have ho : o.ders = [] := by rw [hv'] at hl; exact List.length_eq_zero_iff.1 hl
      rw [ho, hv', if_neg (by simp)]
      refine Does.ret (DersAt.stable _ _ _) (fun {h A} a => ?_)
      have en : ∀ q, DersAt q [] [] = emp := fun q => emp_star _
      rw [en] at a ⊢
      rw [emp_star, star_emp]
      have : v.hollowPaths = 0 := by unfold InMeta.hollowPaths; rw [hv']; rfl
      rw [this]
      exact LostLe.zero.2 a
    · rw [if_pos (by rw [hl]; exact List.length_pos_iff.2 hv')]
      refine (HDerivation.copyAll_does _ _ _ hv.2).post (star_mono (fun h => h) (star_mono (LostLe.mono ?_) (fun h => h)))
      unfold Derivation.hollows InMeta.hollowPaths
      simp [hv']
  refine hcopy.step sd (sg.star (tm.star sm)) fun r => ?_
  obtain ⟨p, ds⟩ := r
  dsimp only
  have td := DersAt.stable p ds v.derivations
  have rest := ((td.star ((Stable.lostLe v.hollowPaths).star sd)).star (sg.star (tm.star sm)))
  rw [e3, e4]
  by_cases hs : o.sigs.length > 0
  · rw [if_pos hs]
    refine Does.fromEmp (Does.new.step Stable.emp rest fun q => ?_)
    refine Does.swap (P := SigsAt o.sigPtr o.sigs v.signatures ⋆ Block q ⋆ DersAt p ds v.derivations ⋆ LostLe v.hollowPaths ⋆
      DersAt o.derPtr o.ders v.derivations ⋆ InMemAt m v.fresh ⋆ InMemAt o v) ?_ (by ac_rfl)
    have rest2 := (Stable.block q).star (td.star ((Stable.lostLe v.hollowPaths).star (sd.star (tm.star sm))))
    refine (SigsAt.access_does _ _ _).step sg rest2 fun _ => ?_
    refine Does.ret (sg.star rest2) (fun {h A} a => ?_)
    have es : o.sigs = v.signatures := by
      obtain ⟨B1, B2, b, -⟩ := a
      exact (fact_star.1 b).1
    have e' : SigsAt o.sigPtr o.sigs v.signatures ⋆ Block q ⋆ DersAt p ds v.derivations ⋆ LostLe v.hollowPaths ⋆
      DersAt o.derPtr o.ders v.derivations ⋆ InMemAt m v.fresh ⋆ InMemAt o v =
      (InMemAt m v.fresh ⋆ DersAt p ds v.derivations ⋆ Block q) ⋆ LostLe v.hollowPaths ⋆
        (InMemAt o v ⋆ DersAt o.derPtr o.ders v.derivations ⋆ SigsAt o.sigPtr o.sigs v.signatures) := by ac_rfl
    rw [e'] at a
    refine star_mono (fun h => ?_) (fun h => h) a
    show (InMemAt m v.fresh ⋆ DersAt p ds v.derivations ⋆ SigsAt q o.sigs v.signatures) _ _
    unfold SigsAt
    rw [fact_true es, emp_star, BlockIf.pos (by rw [← es]; exact List.length_pos_iff.1 hs)]
    exact h
  · rw [if_neg hs]
    refine Does.ret rest (fun {h A} a => ?_)
    have e' : (DersAt p ds v.derivations ⋆ LostLe v.hollowPaths ⋆ DersAt o.derPtr o.ders v.derivations) ⋆ SigsAt o.sigPtr o.sigs v.signatures ⋆ InMemAt m v.fresh ⋆ InMemAt o v =
      (InMemAt m v.fresh ⋆ DersAt p ds v.derivations) ⋆ LostLe v.hollowPaths ⋆
        (InMemAt o v ⋆ DersAt o.derPtr o.ders v.derivations ⋆ SigsAt o.sigPtr o.sigs v.signatures) := by ac_rfl
    rw [e'] at a
    have es : o.sigs = v.signatures := by
      obtain ⟨B1, B2, -, ⟨B3, B4, -, ⟨B5, B6, -, ⟨B7, B8, -, b, -⟩, -⟩, -⟩, -⟩ := a
      exact (fact_star.1 b).1
    refine star_mono (fun h => ?_) (fun h => h) a
    show (InMemAt m v.fresh ⋆ DersAt p ds v.derivations ⋆ SigsAt o.sigPtr o.sigs v.signatures) _ _
    unfold SigsAt
    rw [fact_true es, emp_star, BlockIf.neg (by rw [← es]; exact fun c => hs (List.length_pos_iff.2 c)), star_emp]
    exact h

end HInMeta

end UB
