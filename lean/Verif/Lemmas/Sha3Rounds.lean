import Verif.Spec.Sha3
import Verif.Model.Sha3
import Verif.Lemmas.Sha2Words

/-
The permutation of sha3.c is Keccak-f[1600].
-/

namespace UB
namespace Sha3
open Spec

theorem list25 (s : List UInt64) (h : s.length = 25) : ∃ a0 a1 a2 a3 a4 a5 a6 a7 a8 a9 a10 a11 a12 a13 a14 a15 a16 a17 a18 a19 a20 a21 a22 a23 a24, s = [a0, a1, a2, a3, a4, a5, a6, a7, a8, a9, a10, a11, a12, a13, a14, a15, a16, a17, a18, a19, a20, a21, a22, a23, a24] := by
  iterate 25 (obtain _ | ⟨_, s⟩ := s; · simp at h)
  have : s = [] := List.eq_nil_of_length_eq_zero (by simpa using h)
  exact ⟨_, _, _, _, _, _, _, _, _, _, _, _, _, _, _, _, _, _, _, _, _, _, _, _, _, by rw [this]⟩

theorem build25 (f : Nat → Nat → UInt64) : Spec.Sha3.build f = [f 0 0, f 1 0, f 2 0, f 3 0, f 4 0, f 0 1, f 1 1, f 2 1, f 3 1, f 4 1, f 0 2, f 1 2, f 2 2, f 3 2, f 4 2, f 0 3, f 1 3, f 2 3, f 3 3, f 4 3, f 0 4, f 1 4, f 2 4, f 3 4, f 4 4] := rfl

theorem rotl_bits (q : UInt64) (n : Nat) (h0 : 0 < n) (h : n < 64) : q <<< UInt64.ofNat n ^^^ q >>> UInt64.ofNat (64 - n) = Spec.Sha3.rotl q n := by
  unfold Spec.Sha3.rotl
  apply UInt64.eq_of_toBitVec_eq
  have e1 : (UInt64.ofNat n).toBitVec % 64 = BitVec.ofNat 64 n := by
    apply BitVec.eq_of_toNat_eq
    simp [BitVec.toNat_umod]; omega
  have e2 : (UInt64.ofNat (64 - n)).toBitVec % 64 = BitVec.ofNat 64 (64 - n) := by
    apply BitVec.eq_of_toNat_eq
    simp [BitVec.toNat_umod]; omega
  simp only [UInt64.toBitVec_xor, UInt64.toBitVec_or, UInt64.toBitVec_shiftLeft, UInt64.toBitVec_shiftRight]
  simp only [UInt64.toBitVec_ofNat'] at e1 e2 ⊢
  rw [e1, e2]
  apply BitVec.eq_of_getLsbD_eq
  intro i hi
  simp only [BitVec.getLsbD_xor, BitVec.getLsbD_or, BitVec.shiftLeft_eq', BitVec.ushiftRight_eq', BitVec.toNat_ofNat, BitVec.getLsbD_shiftLeft, BitVec.getLsbD_ushiftRight]
  rw [Nat.mod_eq_of_lt (show n < 2 ^ 64 by omega), Nat.mod_eq_of_lt (show 64 - n < 2 ^ 64 by omega)]
  by_cases hn : i < n
  · simp [hn]
  · rw [BitVec.getLsbD_of_ge q.toBitVec (64 - n + i) (by omega)]; simp

theorem rotl64_eq (q n : UInt64) (h0 : 0 < n.toNat) (h : n.toNat < 64) : rotl64 q n = Spec.Sha3.rotl q n.toNat := by
  rw [← rotl_bits q n.toNat h0 h]
  unfold rotl64
  have e : (64 : UInt64) - n = UInt64.ofNat (64 - n.toNat) := by
    apply UInt64.toNat_inj.mp
    rw [UInt64.toNat_sub]
    simp; omega
  rw [e, UInt64.ofNat_toNat]

theorem rotl_zero (w : UInt64) : Spec.Sha3.rotl w 0 = w := by
  unfold Spec.Sha3.rotl
  apply UInt64.eq_of_toBitVec_eq
  simp

theorem rhoTable : ((List.range 25).map fun i => Spec.Sha3.rhoOffset (i % 5) (i / 5)) =
    [0, 1, 62, 28, 27, 36, 44, 6, 55, 20, 3, 10, 43, 25, 39, 41, 45, 15, 21, 8, 18, 2, 61, 56, 14] := by decide +kernel

theorem rcTable : (List.range 24).map Spec.Sha3.roundConstant = roundConstants := by decide +kernel

theorem rotl_swap (a b : UInt64) : rotl64 a 1 ^^^ b = b ^^^ Spec.Sha3.rotl a 1 := by
  rw [rotl64_eq a 1 (by decide) (by decide), UInt64.xor_comm]; rfl

theorem theta_eq (s : List UInt64) (h : s.length = 25) : theta s = Spec.Sha3.theta s := by
  obtain ⟨a0, a1, a2, a3, a4, a5, a6, a7, a8, a9, a10, a11, a12, a13, a14, a15, a16, a17, a18, a19, a20, a21, a22, a23, a24, rfl⟩ := list25 s h
  simp [theta, rotl_swap, Spec.Sha3.theta, build25, at', Spec.Sha3.lane, Spec.Sha3.parity, List.range, List.range.loop]

theorem pi_eq (s : List UInt64) (h : s.length = 25) : pi s = Spec.Sha3.pi s := by
  obtain ⟨a0, a1, a2, a3, a4, a5, a6, a7, a8, a9, a10, a11, a12, a13, a14, a15, a16, a17, a18, a19, a20, a21, a22, a23, a24, rfl⟩ := list25 s h
  simp [pi, Spec.Sha3.pi, build25, at', Spec.Sha3.lane]

theorem chi_eq (s : List UInt64) (h : s.length = 25) : chi s = Spec.Sha3.chi s := by
  obtain ⟨a0, a1, a2, a3, a4, a5, a6, a7, a8, a9, a10, a11, a12, a13, a14, a15, a16, a17, a18, a19, a20, a21, a22, a23, a24, rfl⟩ := list25 s h
  simp [chi, Spec.Sha3.chi, build25, at', Spec.Sha3.lane]

theorem rho_eq (s : List UInt64) (h : s.length = 25) : rho s = Spec.Sha3.rho s := by
  have e : Spec.Sha3.rho s = List.zipWith (fun x n => Spec.Sha3.rotl x n) ((List.range 25).map fun i => Spec.Sha3.lane s (i % 5) (i / 5))
      ((List.range 25).map fun i => Spec.Sha3.rhoOffset (i % 5) (i / 5)) := by
    rw [List.zipWith_map]
    simp [Spec.Sha3.rho, Spec.Sha3.build]
  rw [e, rhoTable]
  obtain ⟨a0, a1, a2, a3, a4, a5, a6, a7, a8, a9, a10, a11, a12, a13, a14, a15, a16, a17, a18, a19, a20, a21, a22, a23, a24, rfl⟩ := list25 s h
  simp [rho, at', Spec.Sha3.lane, List.range, List.range.loop, rotl64_eq, rotl_zero]

theorem length_build (f : Nat → Nat → UInt64) : (Spec.Sha3.build f).length = 25 := by rw [build25]; rfl

theorem iota_eq (s : List UInt64) (h : s.length = 25) (i : Nat) : s.set 0 (at' s 0 ^^^ Spec.Sha3.roundConstant i) = Spec.Sha3.iota i s := by
  obtain ⟨a0, a1, a2, a3, a4, a5, a6, a7, a8, a9, a10, a11, a12, a13, a14, a15, a16, a17, a18, a19, a20, a21, a22, a23, a24, rfl⟩ := list25 s h
  simp [Spec.Sha3.iota, build25, at', Spec.Sha3.lane]

theorem rounds_eq (is : List Nat) : ∀ (s : List UInt64), s.length = 25 →
    (is.map Spec.Sha3.roundConstant).foldl (fun s c =>
      let s := chi (pi (rho (theta s)))
      s.set 0 (at' s 0 ^^^ c)) s = is.foldl (fun s i => Spec.Sha3.iota i (Spec.Sha3.chi (Spec.Sha3.pi (Spec.Sha3.rho (Spec.Sha3.theta s))))) s ∧
    (is.foldl (fun s i => Spec.Sha3.iota i (Spec.Sha3.chi (Spec.Sha3.pi (Spec.Sha3.rho (Spec.Sha3.theta s))))) s).length = 25 := by
  induction is with
  | nil => intro s h; exact ⟨rfl, h⟩
  | cons i is ih =>
    intro s h
    simp only [List.map_cons, List.foldl_cons]
    have l1 : (Spec.Sha3.theta s).length = 25 := length_build _
    have l2 : (Spec.Sha3.rho (Spec.Sha3.theta s)).length = 25 := length_build _
    have l3 : (Spec.Sha3.pi (Spec.Sha3.rho (Spec.Sha3.theta s))).length = 25 := length_build _
    have l4 : (Spec.Sha3.chi (Spec.Sha3.pi (Spec.Sha3.rho (Spec.Sha3.theta s)))).length = 25 := length_build _
    rw [theta_eq s h, rho_eq _ l1, pi_eq _ l2, chi_eq _ l3, iota_eq _ l4]
    exact ih _ (length_build _)

theorem permutation_eq (s : List UInt64) (h : s.length = 25) : permutation s = Spec.Sha3.keccakF s ∧ (Spec.Sha3.keccakF s).length = 25 := by
  unfold permutation Spec.Sha3.keccakF
  rw [← rcTable]
  exact rounds_eq (List.range 24) s h

/-- The rates of the four functions. -/
def Rate (bs : Nat) : Prop := bs = 72 ∨ bs = 104 ∨ bs = 136 ∨ bs = 144

theorem set_words (block : Bytes) (n : Nat) : ∀ (h : List UInt64), n ≤ h.length →
    (List.range n).foldl (fun h i => h.set i (at' h i ^^^ word block i)) h =
      List.zipWith (· ^^^ ·) h ((List.range n).map (word block) ++ List.replicate (h.length - n) 0) := by
  induction n with
  | zero => intro h _; apply List.ext_getElem <;> simp
  | succ n ih =>
    intro h hn
    rw [List.range_succ, List.foldl_append, ih h (by omega), List.map_append]
    generalize hw : (List.range n).map (word block) = ws
    have lw : ws.length = n := by rw [← hw]; simp
    subst lw
    have e1 : List.replicate (h.length - ws.length) (0 : UInt64) = 0 :: List.replicate (h.length - (ws.length + 1)) 0 := by
      rw [← List.replicate_succ]; congr 1; omega
    obtain ⟨a, x, r, rfl, ha⟩ : ∃ a x r, h = a ++ x :: r ∧ a.length = ws.length :=
      ⟨h.take ws.length, h[ws.length], h.drop (ws.length + 1), by simp, by simp; omega⟩
    rw [e1, List.zipWith_append ha.symm.symm]
    simp only [List.foldl_cons, List.foldl_nil, List.zipWith_cons_cons, at', List.map_cons, List.map_nil]
    rw [List.append_assoc, List.zipWith_append ha, List.singleton_append, List.zipWith_cons_cons]
    have lz : (List.zipWith (· ^^^ ·) a ws).length = ws.length := by simp [ha]
    simp [List.getD_eq_getElem?_getD, ha]

theorem memNat_le (l : Bytes) : memNat l = Spec.leNat l := by
  induction l with
  | nil => rfl
  | cons b l ih => simp [memNat, Spec.leNat, ih]

theorem words_chunks (n : Nat) : ∀ (b : Bytes), 8 * n ≤ b.length →
    (List.range n).map (word b) = (Spec.chunks 8 (b.take (8 * n))).map fun w => UInt64.ofNat (Spec.leNat w) := by
  induction n with
  | zero => intro b _; simp [Spec.chunks_nil]
  | succ n ih =>
    intro b hb
    have e : b.take (8 * (n + 1)) = b.take (8 * n) ++ (b.drop (8 * n)).take 8 := by
      rw [← List.take_add]; rfl
    rw [e, Spec.chunks_append 8 (by decide) n _ _ (by simp; omega), Spec.chunks_one 8 (by decide) ((b.drop (8 * n)).take 8) (by simp; omega), List.range_succ]
    simp only [List.map_append, List.map_cons, List.map_nil]
    rw [ih b (by omega), word, memNat_le]

theorem processBlock_eq (hash : List UInt64) (block : Bytes) (bs : Nat) (hr : Rate bs) (hh : hash.length = 25) (hb : bs ≤ block.length) :
    processBlock hash block bs = Spec.Sha3.absorb hash (block.take bs) ∧ (Spec.Sha3.absorb hash (block.take bs)).length = 25 := by
  have key : ∀ n, 8 * n = bs → n ≤ 25 → permutation ((List.range n).foldl (fun h i => h.set i (at' h i ^^^ word block i)) hash) = Spec.Sha3.absorb hash (block.take bs) ∧
      (Spec.Sha3.absorb hash (block.take bs)).length = 25 := by
    intro n hn h25
    rw [set_words block n hash (by omega), words_chunks n block (by omega), hn]
    unfold Spec.Sha3.absorb Spec.Sha3.blockLanes
    have e : (block.take bs).length / 8 = n := by simp; omega
    rw [e, hh]
    apply permutation_eq
    simp only [List.length_zipWith, List.length_append, List.length_map, List.length_replicate, hh]
    have : (Spec.chunks 8 (block.take bs)).length = n := by
      have := congrArg List.length (words_chunks n block (by omega))
      rw [hn] at this
      simpa using this.symm
    omega
  unfold processBlock
  rcases hr with rfl | rfl | rfl | rfl
  · exact key 9 rfl (by decide)
  · exact key 13 rfl (by decide)
  · exact key 17 rfl (by decide)
  · exact key 18 rfl (by decide)

end Sha3
end UB
