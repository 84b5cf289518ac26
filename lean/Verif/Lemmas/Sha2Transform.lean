import Verif.Model.Sha2
import Verif.Spec.Sha2
import Mathlib.Data.List.GetD

/-
The SHA-2 transform with its rolling sixteen-word schedule equals the compression
function of the standard.
-/

namespace UB

/-- The facts tying one half of sha2.c to one member of the SHA-2 family. -/
structure Sha2Ok {W BC : Type} [Add W] [OfNat W 0] [Inhabited W]
    (P : Sha2Code W BC) (S : Spec.Sha2 W) : Prop where
  dflt : (default : W) = 0
  add_comm : ∀ x y : W, x + y = y + x
  add_assoc : ∀ x y z : W, x + y + z = x + (y + z)
  wlen : P.wlen = S.wordBytes
  wpos : 0 < S.wordBytes
  rounds : P.nrounds = S.rounds
  rounds16 : 16 ≤ S.rounds
  bigS0 : P.bigS0 = S.bigS0
  bigS1 : P.bigS1 = S.bigS1
  smS0 : P.smS0 = S.smS0
  smS1 : P.smS1 = S.smS1
  ch : P.ch = S.ch
  maj : P.maj = S.maj
  k : ∀ j < S.rounds, P.K.getD j 0 = S.k j
  iv : P.iv = S.h0.toList
  load : ∀ bs : Bytes, bs.length = S.wordBytes → P.reverse (P.ofMem bs) = S.ofNat (Spec.beNat bs)
  save : ∀ w, P.toMem (P.reverse w) = Spec.beBytes S.wordBytes (S.toNat w)
  toMem_length : ∀ w, (P.toMem w).length = S.wordBytes
  word_rt : ∀ w, S.ofNat (Spec.beNat (Spec.beBytes S.wordBytes (S.toNat w))) = w

/-- `b` counts `n` bytes. -/
structure Sha2Count {W BC : Type} [Add W] [OfNat W 0] [Inhabited W]
    (P : Sha2Code W BC) (S : Spec.Sha2 W) (cnt : BC → Nat → Prop) : Prop where
  zero : cnt P.zeroBits 0
  add : ∀ b n k, cnt b n → n + k < 2 ^ 61 → cnt (P.addBits b (Sha2Code.shl3 k)) (n + k)
  used : ∀ b n, cnt b n → n < 2 ^ 61 → P.used b = n % P.blockLen
  len : ∀ b n, cnt b n → n < 2 ^ 61 →
    Spec.beBytes S.wordBytes (S.toNat (P.lenHi b)) ++ Spec.beBytes S.wordBytes (S.toNat (P.lenLo b))
      = Spec.beBytes (2 * S.wordBytes) (8 * n)

namespace Spec.Sha2
variable {W : Type} [Add W] [Inhabited W] (S : Spec.Sha2 W)

theorem length_schedule (M : List W) (n : Nat) : (S.schedule M n).length = M.length + n := by
  induction n with
  | zero => rfl
  | succ n ih => simp [schedule, ih]; omega

theorem getD_schedule_succ (M : List W) (n i : Nat) (h : i < M.length + n) :
    (S.schedule M (n + 1)).getD i default = (S.schedule M n).getD i default := by
  rw [schedule, List.getD_append]
  rw [length_schedule]; exact h

theorem getD_schedule_stable (M : List W) (n m i : Nat) (h : i < M.length + n) :
    (S.schedule M (n + m)).getD i default = (S.schedule M n).getD i default := by
  induction m with
  | zero => rfl
  | succ m ih =>
    rw [← Nat.add_assoc, getD_schedule_succ _ _ _ _ (by omega), ih]

theorem getD_schedule_next (M : List W) (hM : M.length = 16) (n m : Nat) :
    (S.schedule M (n + 1 + m)).getD (16 + n) default =
      S.smS1 ((S.schedule M (n + 1 + m)).getD (14 + n) default)
        + (S.schedule M (n + 1 + m)).getD (9 + n) default
        + S.smS0 ((S.schedule M (n + 1 + m)).getD (1 + n) default)
        + (S.schedule M (n + 1 + m)).getD n default := by
  have st : ∀ i < 16 + n, (S.schedule M (n + 1 + m)).getD i default = (S.schedule M n).getD i default := by
    intro i hi
    rw [show n + 1 + m = n + (1 + m) by omega]
    exact S.getD_schedule_stable M n (1 + m) i (by omega)
  rw [st (14 + n) (by omega), st (9 + n) (by omega), st (1 + n) (by omega), st n (by omega),
    S.getD_schedule_stable M (n + 1) m (16 + n) (by omega), schedule]
  have hl := S.length_schedule M n
  rw [hM] at hl
  simp only [hl]
  rw [List.getD_append_right _ _ _ _ (by omega), hl]
  simp only [Nat.sub_self, List.getD_cons_zero]
  rw [show 16 + n - 2 = 14 + n by omega, show 16 + n - 7 = 9 + n by omega,
    show 16 + n - 15 = 1 + n by omega, show 16 + n - 16 = n by omega]

end Spec.Sha2

namespace Sha2Code
variable {W BC : Type} [Add W] [OfNat W 0] [Inhabited W] {P : Sha2Code W BC} {S : Spec.Sha2 W}

/-- The locals as working variables of the specification. -/
def _root_.UB.Vars.regs (v : Vars W) : Spec.Regs W := ⟨v.a, v.b, v.c, v.d, v.e, v.f, v.g, v.h⟩

theorem rnd_regs (ok : Sha2Ok P S) (v : Vars W) (k w : W) :
    (P.rnd v k w).regs = S.round v.regs k w := by
  simp [rnd, Spec.Sha2.round, Vars.regs, ok.bigS0, ok.bigS1, ok.ch, ok.maj]

theorem foldl_pass1 (ok : Sha2Ok P S) (M : List W) (v : Vars W) (w : List W)
    (hw : w.length = 16) (n : Nat) (hn : n ≤ 16) :
    let s := (List.range n).foldl (P.pass1 M) (v, w)
    s.1.regs = (List.range n).foldl (fun r t => S.round r (S.k t) (M.getD t default)) v.regs
      ∧ s.2.length = 16 ∧ ∀ i < n, s.2.getD i 0 = M.getD i default := by
  induction n with
  | zero => simp [hw]
  | succ n ih =>
    obtain ⟨h1, h2, h3⟩ := ih (by omega)
    simp only [List.range_succ, List.foldl_append, List.foldl_cons, List.foldl_nil] at h1 h2 h3 ⊢
    generalize (List.range n).foldl (P.pass1 M) (v, w) = s at h1 h2 h3 ⊢
    refine ⟨?_, by simp [pass1, h2], ?_⟩
    · simp only [pass1]
      rw [rnd_regs ok, h1, ok.k n (by have := ok.rounds16; omega), ok.dflt]
    · intro i hi
      simp only [pass1]
      by_cases h : i = n
      · subst h
        rw [ok.dflt, List.getD_eq_getElem _ _ (by simp [h2]; omega), List.getElem_set_self]
      · have := h3 i (by omega)
        rw [List.getD_eq_getElem _ _ (by simp [h2]; omega), List.getElem_set_ne (by omega)]
        rw [List.getD_eq_getElem _ _ (by omega)] at this
        exact this

theorem foldl_pass2 (ok : Sha2Ok P S) (M : List W) (hM : M.length = 16) (N : Nat) (hN : 16 + N = S.rounds)
    (v : Vars W) (w : List W)
    (hw : w.length = 16) (hwM : ∀ i < 16, w.getD i 0 = M.getD i default) (n : Nat) (hn : n ≤ N) :
    let s := (List.range' 16 n).foldl P.pass2 (v, w)
    s.1.regs = (List.range' 16 n).foldl
        (fun r t => S.round r (S.k t) ((S.schedule M N).getD t default)) v.regs
      ∧ s.2.length = 16
      ∧ ∀ k < 16, s.2.getD ((n + k) % 16) 0 = (S.schedule M N).getD (n + k) default := by
  induction n with
  | zero =>
    refine ⟨rfl, by simpa using hw, ?_⟩
    intro k hk
    have := S.getD_schedule_stable M 0 N k (by omega)
    rw [Nat.zero_add] at this
    rw [Nat.zero_add, Nat.mod_eq_of_lt hk, this]
    exact hwM k hk
  | succ n ih =>
    obtain ⟨h1, h2, h3⟩ := ih (by omega)
    simp only [List.range'_1_concat, List.foldl_append, List.foldl_cons, List.foldl_nil] at h1 h2 h3 ⊢
    generalize (List.range' 16 n).foldl P.pass2 (v, w) = s at h1 h2 h3 ⊢
    have e0 := h3 0 (by omega)
    have e1 := h3 1 (by omega)
    have e9 := h3 9 (by omega)
    have e14 := h3 14 (by omega)
    have hnext := S.getD_schedule_next M hM n (N - (n + 1))
    rw [show n + 1 + (N - (n + 1)) = N by omega] at hnext
    have hw : s.2.getD ((16 + n) % 16) 0 + (P.smS1 (s.2.getD ((16 + n + 14) % 16) 0)
        + s.2.getD ((16 + n + 9) % 16) 0 + P.smS0 (s.2.getD ((16 + n + 1) % 16) 0))
        = (S.schedule M N).getD (16 + n) default := by
      rw [show (16 + n) % 16 = (n + 0) % 16 by omega, show (16 + n + 14) % 16 = (n + 14) % 16 by omega,
        show (16 + n + 9) % 16 = (n + 9) % 16 by omega, show (16 + n + 1) % 16 = (n + 1) % 16 by omega,
        e0, e1, e9, e14, hnext, ok.smS0, ok.smS1, ok.add_comm, Nat.add_comm 14 n, Nat.add_comm 9 n,
        Nat.add_comm 1 n]
      rfl
    refine ⟨?_, by simp [pass2, h2], ?_⟩
    · simp only [pass2]
      rw [rnd_regs ok, h1, ok.k (16 + n) (by omega), hw]
    · intro k hk
      simp only [pass2]
      rw [hw]
      by_cases h : k = 15
      · subst h
        rw [show (n + 1 + 15) % 16 = (16 + n) % 16 by omega,
          List.getD_eq_getElem _ _ (by simp [h2]; omega), List.getElem_set_self]
        congr 1; omega
      · have := h3 (k + 1) (by omega)
        rw [show n + 1 + k = n + (k + 1) by omega]
        rw [List.getD_eq_getElem _ _ (by simp [h2]; omega), List.getElem_set_ne (by omega)]
        rw [List.getD_eq_getElem _ _ (by omega)] at this
        exact this

/-- The transform is the compression function of the standard. -/
theorem transform_eq (ok : Sha2Ok P S) (H : Spec.Regs W) (M : List W) (hM : M.length = 16) :
    P.transform H.toList M = (S.compress H M).toList := by
  have h16 := ok.rounds16
  obtain ⟨a1, a2, a3⟩ := foldl_pass1 ok M ⟨H.a, H.b, H.c, H.d, H.e, H.f, H.g, H.h⟩
    (List.replicate 16 0) (by simp) 16 (by omega)
  have key := foldl_pass2 ok M hM (S.rounds - 16) (by omega)
    ((List.range 16).foldl (P.pass1 M) (⟨H.a, H.b, H.c, H.d, H.e, H.f, H.g, H.h⟩, List.replicate 16 0)).1
    ((List.range 16).foldl (P.pass1 M) (⟨H.a, H.b, H.c, H.d, H.e, H.f, H.g, H.h⟩, List.replicate 16 0)).2
    a2 (fun i hi => a3 i hi) (S.rounds - 16) (by omega)
  obtain ⟨b1, -, -⟩ := key
  rw [a1] at b1
  have hsplit : List.range S.rounds = List.range 16 ++ List.range' 16 (S.rounds - 16) := by
    rw [List.range_eq_range', List.range_eq_range']
    have := List.range'_append (s := 0) (m := 16) (n := S.rounds - 16) (step := 1)
    simp only [Nat.one_mul, Nat.zero_add] at this
    rw [this]; congr 1; omega
  have hfirst : (List.range 16).foldl (fun r t => S.round r (S.k t) (M.getD t default))
        (Vars.regs ⟨H.a, H.b, H.c, H.d, H.e, H.f, H.g, H.h⟩)
      = (List.range 16).foldl (fun r t => S.round r (S.k t) ((S.schedule M (S.rounds - 16)).getD t default)) H := by
    have : ∀ (l : List Nat) (r : Spec.Regs W), (∀ t ∈ l, t < 16) →
        l.foldl (fun r t => S.round r (S.k t) (M.getD t default)) r
        = l.foldl (fun r t => S.round r (S.k t) ((S.schedule M (S.rounds - 16)).getD t default)) r := by
      intro l
      induction l with
      | nil => intros; rfl
      | cons t l ih =>
        intro r hl
        have := S.getD_schedule_stable M 0 (S.rounds - 16) t (by have := hl t (by simp); omega)
        rw [Nat.zero_add] at this
        simp only [List.foldl_cons, this]
        exact ih _ (fun t ht => hl t (by simp [ht]))
    exact this _ _ (by simp)
  rw [hfirst, ← List.foldl_append, ← hsplit] at b1
  simp only [transform, Spec.Sha2.compress]
  rw [ok.rounds]
  have hst : ((H.toList).getD 0 0, (H.toList).getD 1 0, (H.toList).getD 2 0, (H.toList).getD 3 0,
     (H.toList).getD 4 0, (H.toList).getD 5 0, (H.toList).getD 6 0, (H.toList).getD 7 0)
     = (H.a, H.b, H.c, H.d, H.e, H.f, H.g, H.h) := rfl
  simp only [Prod.mk.injEq] at hst
  obtain ⟨q0, q1, q2, q3, q4, q5, q6, q7⟩ := hst
  rw [q0, q1, q2, q3, q4, q5, q6, q7]
  rw [← b1]
  simp only [Spec.Regs.toList, Vars.regs]
  simp only [ok.add_comm]

end Sha2Code
end UB
