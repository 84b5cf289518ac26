import Verif.Spec.Codec
import Verif.Props.Ints

/-
The wire format is uniquely readable from the front.
-/

namespace UB.Spec

theorem prefix_le (k : Nat) : Prefix (fun n => n < 256 ^ k) (leBytes k) := by
  intro x y r s hx hy h
  have hl : (leBytes k x).length = (leBytes k y).length := by simp
  obtain ⟨h1, h2⟩ := List.append_inj h hl
  exact ⟨leBytes_inj hx hy h1, h2⟩

theorem prefix_fixed (k : Nat) : Prefix (fun b : Bytes => b.length = k) id := by
  intro x y r s hx hy h
  exact List.append_inj h (by show x.length = y.length; rw [hx, hy])

theorem prefix_count : Prefix (fun n => n < 2 ^ 64) compactSize := by
  intro x y r s hx hy h
  have h1 := C10_prefix_free (UInt64.ofNat x) (UInt64.ofNat y) r s
    (by simpa only [UInt64.toNat_ofNat', Nat.mod_eq_of_lt hx, Nat.mod_eq_of_lt hy] using h)
  have h2 := congrArg UInt64.toNat h1
  simp only [UInt64.toNat_ofNat', Nat.mod_eq_of_lt hx, Nat.mod_eq_of_lt hy] at h2
  subst h2
  exact ⟨rfl, List.append_cancel_left h⟩

theorem prefix_varBytes : Prefix (fun b : Bytes => b.length < 2 ^ 64) varBytes := by
  intro x y r s hx hy h
  unfold varBytes at h
  rw [List.append_assoc, List.append_assoc] at h
  obtain ⟨h1, h2⟩ := prefix_count _ _ _ _ hx hy h
  exact List.append_inj h2 h1

theorem prefix_list {α : Type} {D : α → Prop} {f : α → Bytes} (hf : Prefix D f) :
    ∀ (xs ys : List α) (r s : Bytes), (∀ x ∈ xs, D x) → (∀ y ∈ ys, D y) → xs.length = ys.length →
    xs.flatMap f ++ r = ys.flatMap f ++ s → xs = ys ∧ r = s
  | [], [], r, s, _, _, _, h => ⟨rfl, by simpa using h⟩
  | x :: xs, y :: ys, r, s, hx, hy, hl, h => by
    rw [List.flatMap_cons, List.flatMap_cons, List.append_assoc, List.append_assoc] at h
    obtain ⟨h1, h2⟩ := hf x y _ _ (hx x (by simp)) (hy y (by simp)) h
    obtain ⟨h3, h4⟩ := prefix_list hf xs ys r s (fun a ha => hx a (by simp [ha])) (fun a ha => hy a (by simp [ha]))
      (by simpa using hl) h2
    exact ⟨by rw [h1, h3], h4⟩
  | [], _ :: _, _, _, _, _, hl, _ => by simp at hl
  | _ :: _, [], _, _, _, _, hl, _ => by simp at hl

theorem prefix_counted {α : Type} {D : α → Prop} {f : α → Bytes} (hf : Prefix D f) :
    Prefix (fun l : List α => l.length < 2 ^ 64 ∧ ∀ x ∈ l, D x) (fun l => compactSize l.length ++ l.flatMap f) := by
  intro xs ys r s hx hy h
  simp only [List.append_assoc] at h
  obtain ⟨h1, h2⟩ := prefix_count _ _ _ _ hx.1 hy.1 h
  exact prefix_list hf xs ys r s hx.2 hy.2 h1 h2

theorem prefix_witness : Prefix (fun l : List Bytes => l.length < 2 ^ 64 ∧ ∀ x ∈ l, x.length < 2 ^ 64) witnessBytes :=
  prefix_counted prefix_varBytes

theorem prefix_in (x y : In) (r s : Bytes) (hx : GoodIn x) (hy : GoodIn y) (h : inBytes x ++ r = inBytes y ++ s) :
    stripIn x = stripIn y ∧ r = s := by
  unfold inBytes at h
  simp only [List.append_assoc] at h
  obtain ⟨h1, h⟩ := prefix_fixed 32 _ _ _ _ hx.hash hy.hash h
  obtain ⟨h2, h⟩ := prefix_le 4 _ _ _ _ hx.index hy.index h
  obtain ⟨h3, h⟩ := prefix_varBytes _ _ _ _ hx.script hy.script h
  obtain ⟨h4, h⟩ := prefix_le 4 _ _ _ _ hx.sequence hy.sequence h
  refine ⟨?_, h⟩
  simp [stripIn, h1, h2, h3, h4]

theorem prefix_stripIn : Prefix (fun i => GoodIn i ∧ i.witness = []) inBytes := by
  intro x y r s hx hy h
  obtain ⟨h1, h2⟩ := prefix_in x y r s hx.1 hy.1 h
  refine ⟨?_, h2⟩
  have e : ∀ i : In, i.witness = [] → stripIn i = i := by
    intro i hi; cases i; simp only [stripIn] at *; simp [hi]
  rwa [e x hx.2, e y hy.2] at h1

theorem prefix_out : Prefix GoodOut outBytes := by
  intro x y r s hx hy h
  unfold outBytes at h
  simp only [List.append_assoc] at h
  obtain ⟨h1, h⟩ := prefix_le 8 _ _ _ _ hx.amount hy.amount h
  obtain ⟨h2, h⟩ := prefix_varBytes _ _ _ _ hx.script hy.script h
  refine ⟨?_, h⟩
  cases x; cases y; simp_all

theorem inBytes_strip (i : In) : inBytes (stripIn i) = inBytes i := rfl

theorem good_strip {i : In} (h : GoodIn i) : GoodIn (stripIn i) ∧ (stripIn i).witness = [] :=
  ⟨⟨h.hash, h.index, h.script, h.sequence, by simp [stripIn], by simp [stripIn]⟩, rfl⟩

theorem flatMap_inBytes_strip (l : List In) : (l.map stripIn).flatMap inBytes = l.flatMap inBytes := by
  rw [List.flatMap_map]; rfl

theorem legacyBytes_inj (x y : Transaction) (hx : GoodTx x) (hy : GoodTx y) (r s : Bytes)
    (h : legacyBytes x ++ r = legacyBytes y ++ s) : strip x = strip y ∧ r = s := by
  unfold legacyBytes at h
  simp only [List.append_assoc] at h
  obtain ⟨h1, h⟩ := prefix_le 4 _ _ _ _ hx.version hy.version h
  obtain ⟨h2, h⟩ := prefix_count _ _ _ _ hx.ins hy.ins h
  rw [← flatMap_inBytes_strip x.ins, ← flatMap_inBytes_strip y.ins] at h
  obtain ⟨h3, h⟩ := prefix_list prefix_stripIn _ _ _ _
    (fun a ha => by obtain ⟨i, hi, rfl⟩ := List.mem_map.mp ha; exact good_strip (hx.goodIns i hi))
    (fun a ha => by obtain ⟨i, hi, rfl⟩ := List.mem_map.mp ha; exact good_strip (hy.goodIns i hi))
    (by simpa using h2) h
  obtain ⟨h4, h⟩ := prefix_count _ _ _ _ hx.outs hy.outs h
  obtain ⟨h5, h⟩ := prefix_list prefix_out _ _ _ _ hx.goodOuts hy.goodOuts h4 h
  obtain ⟨h6, h⟩ := prefix_le 4 _ _ _ _ hx.locktime hy.locktime h
  refine ⟨?_, h⟩
  simp [strip, h1, h3, h5, h6]

theorem witnesses_eq : ∀ (xs ys : List In), xs.map stripIn = ys.map stripIn →
    xs.map (·.witness) = ys.map (·.witness) → xs = ys
  | [], [], _, _ => rfl
  | x :: xs, y :: ys, h1, h2 => by
    simp only [List.map_cons, List.cons.injEq] at h1 h2
    rw [witnesses_eq xs ys h1.2 h2.2]
    congr 1
    have := h1.1
    have hw := h2.1
    cases x; cases y
    simp only [stripIn, In.mk.injEq] at this hw ⊢
    simp_all
  | [], _ :: _, h, _ => by simp at h
  | _ :: _, [], h, _ => by simp at h

theorem segwitBytes_inj (x y : Transaction) (hx : GoodTx x) (hy : GoodTx y) (r s : Bytes)
    (h : segwitBytes x ++ r = segwitBytes y ++ s) : x = y ∧ r = s := by
  unfold segwitBytes at h
  simp only [List.append_assoc] at h
  obtain ⟨h1, h⟩ := prefix_le 4 _ _ _ _ hx.version hy.version h
  have h := (List.append_inj h rfl).2
  obtain ⟨h2, h⟩ := prefix_count _ _ _ _ hx.ins hy.ins h
  rw [← flatMap_inBytes_strip x.ins, ← flatMap_inBytes_strip y.ins] at h
  obtain ⟨h3, h⟩ := prefix_list prefix_stripIn _ _ _ _
    (fun a ha => by obtain ⟨i, hi, rfl⟩ := List.mem_map.mp ha; exact good_strip (hx.goodIns i hi))
    (fun a ha => by obtain ⟨i, hi, rfl⟩ := List.mem_map.mp ha; exact good_strip (hy.goodIns i hi))
    (by simpa using h2) h
  obtain ⟨h4, h⟩ := prefix_count _ _ _ _ hx.outs hy.outs h
  obtain ⟨h5, h⟩ := prefix_list prefix_out _ _ _ _ hx.goodOuts hy.goodOuts h4 h
  have ew : ∀ l : List In, (l.flatMap fun i => witnessBytes i.witness) = (l.map (·.witness)).flatMap witnessBytes := by
    intro l; rw [List.flatMap_map]
  rw [ew, ew] at h
  obtain ⟨h6, h⟩ := prefix_list prefix_witness _ _ _ _
    (fun a ha => by obtain ⟨i, hi, rfl⟩ := List.mem_map.mp ha; exact ⟨(hx.goodIns i hi).count, (hx.goodIns i hi).items⟩)
    (fun a ha => by obtain ⟨i, hi, rfl⟩ := List.mem_map.mp ha; exact ⟨(hy.goodIns i hi).count, (hy.goodIns i hi).items⟩)
    (by simpa using h2) h
  obtain ⟨h7, h⟩ := prefix_le 4 _ _ _ _ hx.locktime hy.locktime h
  refine ⟨?_, h⟩
  have := witnesses_eq _ _ h3 h6
  cases x; cases y; simp_all

end UB.Spec
