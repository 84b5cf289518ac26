import Verif.Lemmas.Sha2Words

/-
SHA-256 on natural numbers, which the kernel evaluates quickly.
-/

namespace UB
open Spec
namespace FastSha

def rot (x n : Nat) : Nat := (x >>> n ||| x <<< (32 - n)) % 4294967296

def ktab : List Nat := [
  0x428a2f98, 0x71374491, 0xb5c0fbcf, 0xe9b5dba5, 0x3956c25b, 0x59f111f1, 0x923f82a4, 0xab1c5ed5,
  0xd807aa98, 0x12835b01, 0x243185be, 0x550c7dc3, 0x72be5d74, 0x80deb1fe, 0x9bdc06a7, 0xc19bf174,
  0xe49b69c1, 0xefbe4786, 0x0fc19dc6, 0x240ca1cc, 0x2de92c6f, 0x4a7484aa, 0x5cb0a9dc, 0x76f988da,
  0x983e5152, 0xa831c66d, 0xb00327c8, 0xbf597fc7, 0xc6e00bf3, 0xd5a79147, 0x06ca6351, 0x14292967,
  0x27b70a85, 0x2e1b2138, 0x4d2c6dfc, 0x53380d13, 0x650a7354, 0x766a0abb, 0x81c2c92e, 0x92722c85,
  0xa2bfe8a1, 0xa81a664b, 0xc24b8b70, 0xc76c51a3, 0xd192e819, 0xd6990624, 0xf40e3585, 0x106aa070,
  0x19a4c116, 0x1e376c08, 0x2748774c, 0x34b0bcb5, 0x391c0cb3, 0x4ed8aa4a, 0x5b9cca4f, 0x682e6ff3,
  0x748f82ee, 0x78a5636f, 0x84c87814, 0x8cc70208, 0x90befffa, 0xa4506ceb, 0xbef9a3f7, 0xc67178f2]

def round (r : Regs Nat) (k w : Nat) : Regs Nat :=
  let t1 := (r.h + (rot r.e 6 ^^^ rot r.e 11 ^^^ rot r.e 25) + ((r.e &&& r.f) ^^^ ((4294967295 - r.e) &&& r.g)) + k + w) % 4294967296
  ⟨(t1 + (rot r.a 2 ^^^ rot r.a 13 ^^^ rot r.a 22) + ((r.a &&& r.b) ^^^ (r.a &&& r.c) ^^^ (r.b &&& r.c))) % 4294967296,
    r.a, r.b, r.c, (r.d + t1) % 4294967296, r.e, r.f, r.g⟩

/-- The schedule, last word first. -/
def schedule (w : List Nat) : Nat → List Nat
  | 0 => w
  | n + 1 => schedule (((rot (w.getD 1 0) 17 ^^^ rot (w.getD 1 0) 19 ^^^ (w.getD 1 0) >>> 10) + w.getD 6 0
      + (rot (w.getD 14 0) 7 ^^^ rot (w.getD 14 0) 18 ^^^ (w.getD 14 0) >>> 3) + w.getD 15 0) % 4294967296 :: w) n

def rounds : List Nat → List Nat → Regs Nat → Regs Nat
  | k :: ks, w :: ws, r => rounds ks ws (round r k w)
  | _, _, r => r

def compress (H : Regs Nat) (M : List Nat) : Regs Nat :=
  let r := rounds ktab (schedule M.reverse 48).reverse H
  ⟨(r.a + H.a) % 4294967296, (r.b + H.b) % 4294967296, (r.c + H.c) % 4294967296, (r.d + H.d) % 4294967296,
    (r.e + H.e) % 4294967296, (r.f + H.f) % 4294967296, (r.g + H.g) % 4294967296, (r.h + H.h) % 4294967296⟩

/-- The last `k` words of a number. -/
def words (v : Nat) : Nat → List Nat
  | 0 => []
  | k + 1 => v >>> (32 * k) % 4294967296 :: words v k

/-- One block. -/
def block (t n : Nat) (H : Regs Nat) : Regs Nat := compress H (words (t >>> (512 * n)) 16)

/-- The last `n` blocks of the number `t`. -/
def chain (t n : Nat) (H : Regs Nat) : Regs Nat := ((List.range n).reverse.map (block t)).foldl (fun H f => f H) H

theorem chain_zero (t : Nat) (H : Regs Nat) : chain t 0 H = H := rfl

theorem chain_succ (t n : Nat) (H : Regs Nat) : chain t (n + 1) H = chain t n (block t n H) := by
  unfold chain
  rw [List.range_succ, List.reverse_append, List.reverse_singleton, List.singleton_append, List.map_cons, List.foldl_cons]

/-! ### Agreement with the standard -/

def nats (r : Regs UInt32) : Regs Nat := ⟨r.a.toNat, r.b.toNat, r.c.toNat, r.d.toNat, r.e.toNat, r.f.toNat, r.g.toNat, r.h.toNat⟩

theorem rot_eq (x : UInt32) (n : Nat) (h : n < 32) (h0 : 0 < n) : (rotr32 x (UInt32.ofNat n)).toNat = rot x.toNat n := by
  unfold rotr32 rot
  have hx := x.toNat_lt
  have e1 : (UInt32.ofNat n).toNat = n := by rw [UInt32.toNat_ofNat']; omega
  have e2 : (32 - UInt32.ofNat n).toNat = 32 - n := by
    rw [UInt32.toNat_sub_of_le _ _ (by rw [UInt32.le_iff_toNat_le, e1]; show n ≤ 32; omega), e1]; rfl
  rw [UInt32.toNat_or, UInt32.toNat_shiftRight, UInt32.toNat_shiftLeft, e1, e2, Nat.mod_eq_of_lt h, Nat.mod_eq_of_lt (show 32 - n < 32 by omega),
    show 4294967296 = 2 ^ 32 from rfl, Nat.or_mod_two_pow]
  congr 1
  rw [Nat.mod_eq_of_lt]
  exact Nat.lt_of_le_of_lt (Nat.shiftRight_le _ _) hx

theorem round_eq (r : Regs UInt32) (k w : UInt32) : nats (sha256P.round r k w) = round (nats r) k.toNat w.toNat := by
  have c (x : UInt32) (n : Nat) (h : n < 32) (h0 : 0 < n) := rot_eq x n h h0
  simp only [nats, Sha2.round, round, sha256P, UInt32.toNat_add, UInt32.toNat_xor, UInt32.toNat_and, UInt32.toNat_not,
    ← c _ 2 (by omega) (by omega), ← c _ 13 (by omega) (by omega), ← c _ 22 (by omega) (by omega), ← c _ 6 (by omega) (by omega),
    ← c _ 11 (by omega) (by omega), ← c _ 25 (by omega) (by omega)]
  simp only [show UInt32.ofNat 2 = 2 from rfl, show UInt32.ofNat 13 = 13 from rfl, show UInt32.ofNat 22 = 22 from rfl, show UInt32.ofNat 6 = 6 from rfl,
    show UInt32.ofNat 11 = 11 from rfl, show UInt32.ofNat 25 = 25 from rfl, show UInt32.size - 1 = 4294967295 from rfl]
  simp only [Regs.mk.injEq, and_true, true_and]
  constructor <;> omega

theorem getD_map (w : List UInt32) (i : Nat) : (w.map UInt32.toNat).getD i 0 = (w.getD i default).toNat := by
  rw [List.getD_eq_getElem?_getD, List.getD_eq_getElem?_getD, List.getElem?_map]
  cases w[i]? <;> rfl

theorem getD_rev (w : List UInt32) (i : Nat) (h : i < w.length) : w.reverse.getD i default = w.getD (w.length - (i + 1)) default := by
  rw [List.getD_eq_getElem?_getD, List.getD_eq_getElem?_getD, List.getElem?_reverse h]
  congr 2
  omega

theorem schedule_length (M : List UInt32) (n : Nat) : (sha256P.schedule M n).length = M.length + n := by
  induction n with
  | zero => rfl
  | succ n ih => rw [Sha2.schedule]; simp [ih]; omega

theorem schedule_shift (w : List Nat) (n : Nat) : schedule w (n + 1) = (((fun v => ((rot (v.getD 1 0) 17 ^^^ rot (v.getD 1 0) 19 ^^^ (v.getD 1 0) >>> 10) + v.getD 6 0
      + (rot (v.getD 14 0) 7 ^^^ rot (v.getD 14 0) 18 ^^^ (v.getD 14 0) >>> 3) + v.getD 15 0) % 4294967296) (schedule w n)) :: schedule w n) := by
  induction n generalizing w with
  | zero => rfl
  | succ n ih =>
    rw [schedule, ih]
    rfl

theorem schedule_eq (M : List UInt32) (hM : M.length = 16) (n : Nat) : schedule (M.reverse.map UInt32.toNat) n = (sha256P.schedule M n).reverse.map UInt32.toNat := by
  induction n with
  | zero => rfl
  | succ n ih =>
    have hl := schedule_length M n
    rw [schedule_shift, ih, Sha2.schedule]
    dsimp only
    generalize sha256P.schedule M n = w at hl
    rw [List.reverse_append, List.reverse_singleton, List.singleton_append, List.map_cons]
    congr 1
    simp only [getD_map]
    rw [getD_rev w 1 (by omega), getD_rev w 6 (by omega), getD_rev w 14 (by omega), getD_rev w 15 (by omega)]
    simp only [UInt32.toNat_add, sha256P, UInt32.toNat_xor, UInt32.toNat_shiftRight, ← rot_eq _ 17 (by omega) (by omega), ← rot_eq _ 19 (by omega) (by omega),
      ← rot_eq _ 7 (by omega) (by omega), ← rot_eq _ 18 (by omega) (by omega)]
    simp only [show UInt32.ofNat 17 = 17 from rfl, show UInt32.ofNat 19 = 19 from rfl, show UInt32.ofNat 7 = 7 from rfl, show UInt32.ofNat 18 = 18 from rfl,
      show UInt32.toNat 10 % 32 = 10 from rfl, show UInt32.toNat 3 % 32 = 3 from rfl, Nat.reduceAdd]
    omega

theorem ktab_eq : (List.range 64).map (fun t => (sha256P.k t).toNat) = ktab := by decide +kernel

theorem rounds_eq (ts : List Nat) (f g : Nat → UInt32) (r : Regs UInt32) :
    nats (ts.foldl (fun r t => sha256P.round r (f t) (g t)) r) = rounds (ts.map fun t => (f t).toNat) (ts.map fun t => (g t).toNat) (nats r) := by
  induction ts generalizing r with
  | nil => rfl
  | cons t ts ih => rw [List.foldl_cons, ih, List.map_cons, List.map_cons, rounds, round_eq]

theorem compress_eq (H : Regs UInt32) (M : List UInt32) (hM : M.length = 16) : nats (sha256P.compress H M) = compress (nats H) (M.map UInt32.toNat) := by
  have h := rounds_eq (List.range 64) sha256P.k (fun t => (sha256P.schedule M 48).getD t default) H
  rw [ktab_eq] at h
  have hw : (List.range 64).map (fun t => ((sha256P.schedule M 48).getD t default).toNat) = (schedule (M.map UInt32.toNat).reverse 48).reverse := by
    rw [← List.map_reverse, schedule_eq M hM, ← List.map_reverse, List.reverse_reverse]
    apply List.ext_getElem?
    intro i
    have hl := schedule_length M 48
    rw [List.getElem?_map, List.getElem?_map]
    by_cases hi : i < 64
    · rw [List.getElem?_range hi, List.getElem?_eq_getElem (by omega)]
      simp only [Option.map_some]
      rw [List.getD_eq_getElem _ _ (by omega)]
    · rw [List.getElem?_eq_none (by simp; omega), List.getElem?_eq_none (by omega)]
      rfl
  rw [hw] at h
  unfold compress Sha2.compress
  dsimp only
  rw [← h]
  simp only [nats, UInt32.toNat_add, Nat.reducePow, show sha256P.rounds = 64 from rfl, Nat.reduceSub]

theorem words_eq (v k : Nat) : (sha256P.words (beBytes (4 * k) v)).map UInt32.toNat = words v k := by
  induction k with
  | zero => simp [Sha2.words, chunks, beBytes, leBytes, words]
  | succ k ih =>
    rw [show 4 * (k + 1) = 4 * k + 4 by omega, beBytes_add, Sha2Code.words_append (S := sha256P) (by decide) 1 _ _ (by rw [length_beBytes]; rfl), List.map_append, ih, words]
    have : sha256P.words (beBytes 4 (v / 256 ^ (4 * k))) = [UInt32.ofNat (beNat (beBytes 4 (v / 256 ^ (4 * k))))] := by
      unfold Sha2.words
      rw [show sha256P.wordBytes = 4 from rfl, chunks_one 4 (by decide) _ (length_beBytes _ _)]
      rfl
    rw [this, List.map_cons, List.map_nil, List.singleton_append, beNat_beBytes, UInt32.toNat_ofNat', Nat.shiftRight_eq_div_pow,
      show (256 : Nat) ^ (4 * k) = 2 ^ (32 * k) by rw [show (256 : Nat) = 2 ^ 8 from rfl, ← Nat.pow_mul]; congr 1; omega]
    congr 1
    rw [show (256 : Nat) ^ 4 = 4294967296 from rfl, show (2 : Nat) ^ 32 = 4294967296 from rfl, Nat.mod_mod]

theorem chain_nil (t : Nat) (H : Regs UInt32) : nats (sha256P.chain H (beBytes (64 * 0) t)) = chain t 0 (nats H) := by
  have : beBytes (64 * 0) t = [] := rfl
  rw [this, Sha2Code.chain_nil]
  rfl

theorem block_eq (H : Regs UInt32) (v : Nat) : nats (sha256P.chain H (beBytes 64 v)) = compress (nats H) (words v 16) := by
  have hl : (beBytes 64 v).length = 64 := length_beBytes _ _
  rw [Sha2Code.chain_one (by decide) _ _ hl, compress_eq _ _ (Sha2Code.length_words (S := sha256P) (by decide) 16 _ hl), words_eq v 16]

theorem pow_bytes (n : Nat) : (256 : Nat) ^ (64 * n) = 2 ^ (512 * n) := by
  have : 512 * n = 8 * (64 * n) := by omega
  rw [this, Nat.pow_mul 2 8, show (2 : Nat) ^ 8 = 256 by decide]

theorem split_block (n t : Nat) : beBytes (64 * (n + 1)) t = beBytes 64 (t >>> (512 * n)) ++ beBytes (64 * n) t := by
  rw [Nat.mul_succ, beBytes_add, Nat.shiftRight_eq_div_pow, pow_bytes]

theorem block_length (v : Nat) : (beBytes 64 v).length = 1 * sha256P.blockBytes := by rw [length_beBytes, show sha256P.blockBytes = 64 by decide]

theorem chain_block (t n : Nat) (H : Regs UInt32) : sha256P.chain H (beBytes (64 * (n + 1)) t) =
    sha256P.chain (sha256P.chain H (beBytes 64 (t >>> (512 * n)))) (beBytes (64 * n) t) := by
  rw [split_block]
  exact Sha2Code.chain_append (by decide) H 1 _ _ (block_length _)

/-- The number of a text gives the same chaining values. -/
theorem chain_eq (t n : Nat) (H : Regs UInt32) : nats (sha256P.chain H (beBytes (64 * n) t)) = chain t n (nats H) := by
  induction n generalizing H with
  | zero => exact chain_nil t H
  | succ n ih => rw [chain_block, ih, block_eq, chain_succ, block]

/-- Blocks `n - 1`, …, `n - m`. -/
def run (t n m : Nat) (H : Regs Nat) : Regs Nat := ((List.range m).map fun i => block t (n - i - 1)).foldl (fun H f => f H) H

theorem run_succ (t n m : Nat) (H : Regs Nat) : run t n (m + 1) H = block t (n - m - 1) (run t n m H) := by
  unfold run
  rw [List.range_succ, List.map_append, List.foldl_append, List.map_cons, List.map_nil, List.foldl_cons, List.foldl_nil]

theorem chain_run (t n m : Nat) (H : Regs Nat) (h : m ≤ n) : chain t n H = chain t (n - m) (run t n m H) := by
  induction m with
  | zero => rfl
  | succ m ih =>
    rw [ih (by omega), run_succ, show n - m = (n - (m + 1)) + 1 by omega, chain_succ, show n - (m + 1) + 1 - 1 = n - (m + 1) by omega]

/-- A step of `n` blocks of a hash computation. -/
theorem chain_step {t n m : Nat} {H H' : Regs Nat} (h : run t n m H = H') (hm : m ≤ n) : chain t n H = chain t (n - m) H' := by rw [chain_run t n m H hm, h]

/-- Putting texts together. -/
theorem join_bytes {x y : Bytes} {a b n m k c : Nat} (hx : x = beBytes a n) (hy : y = beBytes b m) (hm : m < 256 ^ b) (hk : k = n * 256 ^ b + m) (hc : c = a + b) :
    x ++ y = beBytes c k := by
  subst hx hy hk hc
  rw [Nat.add_comm a b, beBytes_add, Nat.add_comm, Nat.add_mul_div_right _ _ (Nat.pow_pos (by decide)), Nat.div_eq_of_lt hm, Nat.zero_add]
  congr 1
  have e (x : Nat) : beBytes b (x % 256 ^ b) = beBytes b x := by unfold beBytes; rw [leBytes_mod]
  rw [← e (m + n * 256 ^ b), Nat.add_mul_mod_self_right, e]

theorem nats_inj {r s : Regs UInt32} (h : nats r = nats s) : r = s := by
  obtain ⟨a, b, c, d, e, f, g, i⟩ := r
  obtain ⟨a', b', c', d', e', f', g', i'⟩ := s
  simp only [nats, Regs.mk.injEq, UInt32.toNat_inj] at h
  simp only [Regs.mk.injEq]
  exact h

end FastSha
end UB
