import Verif.Model.HDWallet
import Verif.Spec.HDPath
import Verif.Lemmas.Bytes

/-
C38: derivation paths.
-/

namespace UB
open Spec

/-! ### The specification on texts that are put together -/

/-- One component as one writes it. -/
structure PathPart where
  digits : Bytes
  mark : Bytes
  isNumber : digits ≠ [] ∧ digits.all isDigit = true ∧ decimal digits < 2 ^ 31
  isMark : mark = [] ∨ mark = [104] ∨ mark = [39]

def PathPart.text (p : PathPart) : Bytes := p.digits ++ p.mark
def PathPart.index (p : PathPart) : Nat := decimal p.digits + if p.mark = [] then 0 else 2 ^ 31

/-- The components with slashes between them. -/
def joinParts : List PathPart → Bytes
  | [] => []
  | [p] => p.text
  | p :: q :: ps => p.text ++ 47 :: joinParts (q :: ps)

theorem takeWhile_dropWhile_append {ds r : Bytes} (h : ds.all isDigit = true) (hr : ∀ c ∈ r.head?, isDigit c = false) :
    (ds ++ r).takeWhile isDigit = ds ∧ (ds ++ r).dropWhile isDigit = r := by
  induction ds with
  | nil =>
    cases r with
    | nil => exact ⟨rfl, rfl⟩
    | cons c r =>
      have : isDigit c = false := hr c rfl
      simp [List.takeWhile_cons, List.dropWhile_cons, this]
  | cons d ds ih =>
    simp only [List.all_cons, Bool.and_eq_true] at h
    simp [List.takeWhile_cons, List.dropWhile_cons, h.1, ih h.2]

theorem PathPart.component_text (p : PathPart) : component p.text = some p.index := by
  have hr : ∀ c ∈ p.mark.head?, isDigit c = false := by
    rcases p.isMark with h | h | h <;> rw [h] <;> simp [isDigit]
  obtain ⟨h1, h2⟩ := takeWhile_dropWhile_append p.isNumber.2.1 hr
  unfold component text
  rw [h1, h2]
  have h3 : ¬ (p.digits = [] ∨ 2 ^ 31 ≤ decimal p.digits) := by
    rintro (h | h)
    · exact p.isNumber.1 h
    · exact absurd p.isNumber.2.2 (by omega)
  rw [if_neg h3]
  unfold index
  rcases p.isMark with h | h | h <;> rw [h] <;> simp

theorem isDigit_ne_slash {c : UInt8} (h : isDigit c = true) : c ≠ 47 := by rintro rfl; simp [isDigit] at h

theorem PathPart.no_slash (p : PathPart) : ∀ c ∈ p.text, c ≠ 47 := by
  intro c hc
  rcases List.mem_append.mp hc with hc | hc
  · exact isDigit_ne_slash (List.all_eq_true.mp p.isNumber.2.1 c hc)
  · rcases p.isMark with h | h | h <;> rw [h] at hc <;> simp at hc <;> rw [hc] <;> decide

theorem splitSlash_ne_nil (t : Bytes) : splitSlash t ≠ [] := by
  cases t with
  | nil => simp [splitSlash]
  | cons c t =>
    unfold splitSlash
    split
    · simp
    · split <;> simp

theorem splitSlash_plain (t : Bytes) (h : ∀ c ∈ t, c ≠ 47) : splitSlash t = [t] := by
  induction t with
  | nil => rfl
  | cons c t ih =>
    unfold splitSlash
    rw [if_neg (h c (by simp)), ih fun d hd => h d (by simp [hd])]

theorem splitSlash_append (t u : Bytes) (h : ∀ c ∈ t, c ≠ 47) : splitSlash (t ++ 47 :: u) = t :: splitSlash u := by
  induction t with
  | nil => simp [splitSlash]
  | cons c t ih =>
    rw [List.cons_append, splitSlash, if_neg (h c (by simp)), ih fun d hd => h d (by simp [hd])]

theorem splitSlash_join (ps : List PathPart) (h : ps ≠ []) : splitSlash (joinParts ps) = ps.map (·.text) := by
  induction ps with
  | nil => exact absurd rfl h
  | cons p ps ih =>
    cases ps with
    | nil => exact splitSlash_plain _ p.no_slash
    | cons q ps =>
      rw [joinParts, splitSlash_append _ _ p.no_slash, ih (by simp)]; rfl

theorem mapM_component (ps : List PathPart) : (ps.map (·.text)).mapM component = some (ps.map (·.index)) := by
  induction ps with
  | nil => rfl
  | cons p ps ih => rw [List.map_cons, List.mapM_cons, ih, p.component_text]; rfl

/-- The specification reads the numbers of a path, with or without "m/" and a slash at the end. -/
theorem PathPart.text_cons (p : PathPart) : ∃ c cs, p.text = c :: cs ∧ isDigit c = true := by
  unfold text
  match h : p.digits with
  | [] => exact absurd h p.isNumber.1
  | c :: cs =>
    have := p.isNumber.2.1
    rw [h] at this
    simp only [List.all_cons, Bool.and_eq_true] at this
    exact ⟨c, cs ++ p.mark, rfl, this.1⟩

theorem joinParts_cons (ps : List PathPart) (h : ps ≠ []) : ∃ c cs, joinParts ps = c :: cs ∧ isDigit c = true := by
  match ps with
  | [] => exact absurd rfl h
  | [p] => exact p.text_cons
  | p :: q :: ps =>
    obtain ⟨c, cs, e, hc⟩ := p.text_cons
    exact ⟨c, cs ++ 47 :: joinParts (q :: ps), by rw [joinParts, e]; rfl, hc⟩

theorem joinParts_last (ps : List PathPart) (h : ps ≠ []) : (joinParts ps).getLast? ≠ some 47 := by
  induction ps with
  | nil => exact absurd rfl h
  | cons p ps ih =>
    cases ps with
    | nil =>
      intro e
      exact p.no_slash 47 (List.mem_of_getLast? e) rfl
    | cons q ps =>
      obtain ⟨c, cs, e, -⟩ := joinParts_cons (q :: ps) (by simp)
      have := ih (by simp)
      rw [joinParts, List.getLast?_append, List.getLast?_cons]
      rw [e, List.getLast?_cons] at this ⊢
      simpa using this

theorem pathText_join (ps : List PathPart) (h : ps ≠ []) (m e : Bool) :
    pathText ((if m then [109, 47] else []) ++ joinParts ps ++ if e then [47] else []) = joinParts ps := by
  obtain ⟨c, cs, hc, hd⟩ := joinParts_cons ps h
  have hl := joinParts_last ps h
  have hne : c ≠ 109 := by rintro rfl; simp [isDigit] at hd
  have h1 : (if ((if m then [109, 47] else []) ++ joinParts ps ++ if e then [47] else []).take 2 = [109, 47] then
      ((if m then [109, 47] else []) ++ joinParts ps ++ if e then [47] else []).drop 2 else
      (if m then [109, 47] else []) ++ joinParts ps ++ if e then [47] else []) = joinParts ps ++ if e then [47] else [] := by
    cases m
    · rw [if_neg]
      · simp
      · rw [hc]; simp [hne]
    · rw [if_pos] <;> simp
  unfold pathText
  rw [h1]
  cases e
  · simp [hl]
  · simp

theorem pathIndexes_join (ps : List PathPart) (h : ps ≠ []) (m e : Bool) :
    pathIndexes ((if m then [109, 47] else []) ++ joinParts ps ++ if e then [47] else []) = some (ps.map (·.index)) := by
  rw [pathIndexes, pathText_join ps h, splitSlash_join ps h, mapM_component]

/-! ### What the code does with one component -/

/-- Value of the entry of `derivation` after the characters of one component. -/
def evalPart : Bytes → UInt32 → Option UInt32
  | [], cur => some cur
  | c :: cs, cur =>
    if cur ≥ hardenedIndex then none
    else if 48 ≤ c ∧ c ≤ 57 then evalPart cs (cur * 10 + (c - 48).toUInt32)
    else evalPart cs (cur + hardenedIndex)

theorem prvPathLoop_eq (t : Bytes) (done : List UInt32) (cur : UInt32) :
    prvPathLoop t done cur = (evalPart ((splitSlash t).headD []) cur).bind fun v =>
      (((splitSlash t).tail).mapM (evalPart · 0)).bind fun vs => some (done ++ v :: vs) := by
  induction t generalizing done cur with
  | nil => rfl
  | cons c t ih =>
    unfold prvPathLoop splitSlash
    by_cases hc : c = 47
    · rw [if_pos hc, if_pos hc, ih]
      match hs : splitSlash t with
      | [] => exact absurd hs (splitSlash_ne_nil t)
      | x :: xs =>
        simp only [List.headD_cons, List.tail_cons, evalPart, Option.bind_some, List.mapM_cons]
        cases evalPart x 0 with
        | none => rfl
        | some v =>
          cases xs.mapM (evalPart · 0) with
          | none => rfl
          | some vs => simp
    · rw [if_neg hc, if_neg hc]
      match hs : splitSlash t with
      | [] => exact absurd hs (splitSlash_ne_nil t)
      | x :: xs =>
        simp only [List.headD_cons, List.tail_cons]
        rw [evalPart]
        by_cases h : cur ≥ hardenedIndex
        · rw [if_pos h, if_pos h]; rfl
        · rw [if_neg h, if_neg h]
          by_cases h2 : 48 ≤ c ∧ c ≤ 57
          · rw [if_pos h2, if_pos h2, ih, hs]; rfl
          · rw [if_neg h2, if_neg h2, ih, hs]; rfl

theorem prvPathLoop_start (t : Bytes) : prvPathLoop t [] 0 = (splitSlash t).mapM (evalPart · 0) := by
  rw [prvPathLoop_eq]
  match hs : splitSlash t with
  | [] => exact absurd hs (splitSlash_ne_nil t)
  | x :: xs =>
    simp only [List.headD_cons, List.tail_cons, List.mapM_cons, List.nil_append]
    rfl

def decimalFrom (n : Nat) (ds : Bytes) : Nat := ds.foldl (fun n c => 10 * n + (c.toNat - 48)) n

theorem le_decimalFrom (n : Nat) (ds : Bytes) : n ≤ decimalFrom n ds := by
  induction ds generalizing n with
  | nil => exact Nat.le_refl _
  | cons c ds ih =>
    have := ih (10 * n + (c.toNat - 48))
    show n ≤ decimalFrom (10 * n + (c.toNat - 48)) ds
    omega

theorem digit_toNat {c : UInt8} (h : isDigit c = true) : (c - 48).toNat = c.toNat - 48 ∧ c.toNat - 48 < 10 ∧ 48 ≤ c ∧ c ≤ 57 := by
  have : ∀ c : UInt8, isDigit c = true → (c - 48).toNat = c.toNat - 48 ∧ c.toNat - 48 < 10 ∧ 48 ≤ c ∧ c ≤ 57 := by
    apply forall_byte; decide +kernel
  exact this c h

theorem evalPart_digits (ds r : Bytes) (cur : UInt32) (h : ds.all isDigit = true) (hlt : decimalFrom cur.toNat ds < 2 ^ 31) :
    evalPart (ds ++ r) cur = evalPart r (UInt32.ofNat (decimalFrom cur.toNat ds)) := by
  induction ds generalizing cur with
  | nil => simp [decimalFrom]
  | cons c ds ih =>
    simp only [List.all_cons, Bool.and_eq_true] at h
    obtain ⟨e1, e2, e3, e4⟩ := digit_toNat h.1
    have h1 := le_decimalFrom (10 * cur.toNat + (c.toNat - 48)) ds
    have h2 : decimalFrom cur.toNat (c :: ds) = decimalFrom (10 * cur.toNat + (c.toNat - 48)) ds := rfl
    rw [h2] at hlt ⊢
    have h3 : (cur * 10 + (c - 48).toUInt32).toNat = 10 * cur.toNat + (c.toNat - 48) := by
      rw [UInt32.toNat_add, UInt32.toNat_mul, UInt8.toNat_toUInt32, e1]
      simp
      omega
    have h4 : ¬ cur ≥ hardenedIndex := by
      intro h
      have : (hardenedIndex).toNat ≤ cur.toNat := h
      have e : hardenedIndex.toNat = 2 ^ 31 := rfl
      omega
    rw [List.cons_append, evalPart, if_neg h4, if_pos ⟨e3, e4⟩, ih _ h.2 (by rw [h3]; exact hlt), h3]

/-- The characters that are accepted. -/
def prvChar (c : UInt8) : Bool := (decide (48 ≤ c) && decide (c ≤ 57)) || c == 47 || c == 39 || c == 104

theorem evalPart_component (c : Bytes) (hv : c.all prvChar = true) (hs : ∀ x ∈ c, x ≠ 47) (h0 : c.takeWhile isDigit ≠ [])
    (hlt : decimal (c.takeWhile isDigit) < 2 ^ 31) : evalPart c 0 = (component c).map UInt32.ofNat := by
  have hd : (c.takeWhile isDigit).all isDigit = true := List.all_takeWhile
  have h1 := evalPart_digits (c.takeWhile isDigit) (c.dropWhile isDigit) 0 hd hlt
  rw [List.takeWhile_append_dropWhile] at h1
  rw [h1]
  unfold component
  have h2 : ¬ (c.takeWhile isDigit = [] ∨ 2 ^ 31 ≤ decimal (c.takeWhile isDigit)) := by
    rintro (h | h)
    · exact h0 h
    · omega
  rw [if_neg h2]
  have hsub : ∀ x ∈ c.dropWhile isDigit, x ∈ c := fun x hx => (List.dropWhile_suffix isDigit).subset hx
  have hdr : (c.dropWhile isDigit).head?.all (fun x => !isDigit x) = true := by
    have := List.head?_dropWhile_not isDigit c
    cases h : (c.dropWhile isDigit).head? with
    | none => rfl
    | some x => rw [h] at this; simpa using this
  generalize c.dropWhile isDigit = r at *
  generalize hN : decimal (c.takeWhile isDigit) = N at *
  have hN' : decimalFrom (0 : UInt32).toNat (c.takeWhile isDigit) = N := hN
  rw [hN']
  have hNt : (UInt32.ofNat N).toNat = N := by rw [UInt32.toNat_ofNat']; omega
  match r with
  | [] => simp [evalPart]
  | x :: xs =>
    have hx : isDigit x = false := by simpa using hdr
    have hx1 : x = 39 ∨ x = 104 := by
      have h1 := List.all_eq_true.mp hv x (hsub x (by simp))
      have h2 := hs x (hsub x (by simp))
      have : ∀ x : UInt8, prvChar x = true → x ≠ 47 → isDigit x = false → x = 39 ∨ x = 104 := by apply forall_byte; decide +kernel
      exact this x h1 h2 hx
    have h4 : ¬ (UInt32.ofNat N) ≥ hardenedIndex := by
      intro h
      have : (hardenedIndex).toNat ≤ (UInt32.ofNat N).toNat := h
      have e : hardenedIndex.toNat = 2 ^ 31 := rfl
      omega
    have h5 : ¬ (48 ≤ x ∧ x ≤ 57) := by rcases hx1 with rfl | rfl <;> decide
    rw [evalPart, if_neg h4, if_neg h5, if_neg (List.cons_ne_nil x xs)]
    have h6 : UInt32.ofNat N + hardenedIndex = UInt32.ofNat (N + 2 ^ 31) := by
      rw [UInt32.ofNat_add]; rfl
    have h7 : evalPart xs (UInt32.ofNat N + hardenedIndex) = if xs = [] then some (UInt32.ofNat (N + 2 ^ 31)) else none := by
      cases xs with
      | nil => rw [if_pos rfl, evalPart, h6]
      | cons y ys =>
        rw [if_neg (List.cons_ne_nil y ys), evalPart, if_pos]
        show hardenedIndex.toNat ≤ (UInt32.ofNat N + hardenedIndex).toNat
        rw [h6, UInt32.toNat_ofNat', show hardenedIndex.toNat = 2 ^ 31 from rfl]
        omega
    rw [h7]
    cases xs with
    | nil =>
      rw [if_pos rfl, if_pos (by rcases hx1 with rfl | rfl <;> simp)]
      rfl
    | cons y ys =>
      rw [if_neg (List.cons_ne_nil y ys), if_neg (by simp)]
      rfl

/-! ### Private keys -/

theorem mem_splitSlash {t x : Bytes} (h : x ∈ splitSlash t) : (∀ c ∈ x, c ∈ t) ∧ ∀ c ∈ x, c ≠ 47 := by
  induction t generalizing x with
  | nil => simp [splitSlash] at h; subst h; simp
  | cons c t ih =>
    unfold splitSlash at h
    by_cases hc : c = 47
    · rw [if_pos hc] at h
      rcases List.mem_cons.mp h with rfl | h
      · simp
      · exact ⟨fun d hd => List.mem_cons_of_mem _ ((ih h).1 d hd), (ih h).2⟩
    · rw [if_neg hc] at h
      match hs : splitSlash t with
      | [] => exact absurd hs (splitSlash_ne_nil t)
      | y :: ys =>
        rw [hs] at h ih
        rcases List.mem_cons.mp h with rfl | h
        · obtain ⟨i1, i2⟩ := ih (x := y) (by simp)
          refine ⟨fun d hd => ?_, fun d hd => ?_⟩
          · rcases List.mem_cons.mp hd with rfl | hd
            · simp
            · exact List.mem_cons_of_mem _ (i1 d hd)
          · rcases List.mem_cons.mp hd with rfl | hd
            · exact hc
            · exact i2 d hd
        · obtain ⟨i1, i2⟩ := ih (x := x) (by simp [h])
          exact ⟨fun d hd => List.mem_cons_of_mem _ (i1 d hd), i2⟩

theorem mapM_map_congr {f : Bytes → Option UInt32} {g : Bytes → Option Nat} {l : List Bytes} (h : ∀ x ∈ l, f x = (g x).map UInt32.ofNat) :
    l.mapM f = (l.mapM g).map (·.map UInt32.ofNat) := by
  induction l with
  | nil => rfl
  | cons x l ih =>
    rw [List.mapM_cons, List.mapM_cons, h x (by simp), ih fun y hy => h y (by simp [hy])]
    cases g x with
    | none => rfl
    | some v =>
      cases l.mapM g with
      | none => rfl
      | some vs => rfl

theorem component_chars {x : Bytes} {i : Nat} (h : component x = some i) : ∀ c ∈ x, prvChar c = true := by
  have hx : x.takeWhile isDigit ++ x.dropWhile isDigit = x := List.takeWhile_append_dropWhile
  have hd : (x.takeWhile isDigit).all isDigit = true := List.all_takeWhile
  unfold component at h
  dsimp only at h
  split at h
  · exact absurd h (by simp)
  intro c hc
  rw [← hx] at hc
  rcases List.mem_append.mp hc with hc | hc
  · have := List.all_eq_true.mp hd c hc
    unfold isDigit at this
    unfold prvChar
    rw [this]
    rfl
  · split at h
    · rename_i h1; rw [h1] at hc; simp at hc
    · split at h
      · rename_i h1
        rcases h1 with h1 | h1 <;> rw [h1] at hc <;> simp at hc <;> rw [hc] <;> decide
      · exact absurd h (by simp)

theorem splitSlash_mem {t : Bytes} {c : UInt8} (h : c ∈ t) (hc : c ≠ 47) : ∃ x ∈ splitSlash t, c ∈ x := by
  induction t with
  | nil => simp at h
  | cons d t ih =>
    unfold splitSlash
    by_cases hd : d = 47
    · rw [if_pos hd]
      rcases List.mem_cons.mp h with rfl | h
      · exact absurd hd hc
      · obtain ⟨x, hx, hcx⟩ := ih h
        exact ⟨x, by simp [hx], hcx⟩
    · rw [if_neg hd]
      match hs : splitSlash t with
      | [] => exact absurd hs (splitSlash_ne_nil t)
      | y :: ys =>
        rcases List.mem_cons.mp h with rfl | h
        · exact ⟨c :: y, by simp, by simp⟩
        · obtain ⟨x, hx, hcx⟩ := ih h
          rw [hs] at hx
          rcases List.mem_cons.mp hx with rfl | hx
          · exact ⟨d :: x, by simp, by simp [hcx]⟩
          · exact ⟨x, by simp [hx], hcx⟩

theorem mapM_some {g : Bytes → Option Nat} {l : List Bytes} {is : List Nat} (h : l.mapM g = some is) : ∀ x ∈ l, ∃ i, g x = some i := by
  induction l generalizing is with
  | nil => simp
  | cons y l ih =>
    rw [List.mapM_cons] at h
    intro x hx
    cases hg : g y with
    | none => rw [hg] at h; simp at h
    | some v =>
      cases hm : l.mapM g with
      | none => rw [hg, hm] at h; simp at h
      | some vs =>
        rcases List.mem_cons.mp hx with rfl | hx
        · exact ⟨v, hg⟩
        · exact ih hm x hx

theorem indexes_chars {path : Bytes} {is : List Nat} (h : pathIndexes path = some is) : ∀ c ∈ pathText path, prvChar c = true := by
  intro c hc
  by_cases h47 : c = 47
  · rw [h47]; decide
  · obtain ⟨x, hx, hcx⟩ := splitSlash_mem hc h47
    obtain ⟨i, hi⟩ := mapM_some h x hx
    exact component_chars hi c hcx

/-- The texts on which the code can be expected to follow the specification: a leading 'm' is followed by a slash, there is something after
it, and every component starts with a number below 2^31. -/
structure PathLike (path : Bytes) : Prop where
  lead : path.head? = some 109 → path.take 2 = [109, 47] ∧ 2 < path.length
  nonempty : path ≠ []
  numbers : ∀ x ∈ splitSlash (pathText path), x.takeWhile isDigit ≠ [] ∧ decimal (x.takeWhile isDigit) < 2 ^ 31

theorem pathBody_eq {path : Bytes} (h : PathLike path) : pathBody path = .ok (pathText path) := by
  unfold pathBody
  have h1 : ¬ (path.head? = some 109 ∧ path.length ≤ 2 ∨ path = []) := by
    rintro (⟨h1, h2⟩ | h1)
    · have := (h.lead h1).2; omega
    · exact h.nonempty h1
  dsimp only
  rw [if_neg h1]
  have h2 : (path.head? = some 109) = (path.take 2 = [109, 47]) := by
    apply propext
    refine ⟨fun h1 => (h.lead h1).1, fun h1 => ?_⟩
    match path with
    | [] => simp at h1
    | c :: cs => simp at h1; simp [h1.1]
  simp only [h2]
  rfl

/-- C38: on texts whose numbers are below 2^31 the code reads the path as BIP32 means it, and rejects what is not a path. -/
theorem C38_prv_partial (path : Bytes) (h : PathLike path) : prvPath path = .ok ((pathIndexes path).map (·.map UInt32.ofNat)) := by
  unfold prvPath
  rw [pathBody_eq h, C.bind_ok]
  have e : (fun c : UInt8 => (decide (48 ≤ c) && decide (c ≤ 57)) || c == 47 || c == 39 || c == 104) = prvChar := rfl
  rw [e]
  by_cases hv : (pathText path).all prvChar = true
  · rw [if_pos hv, prvPathLoop_start, C.pure_eq, pathIndexes]
    rw [mapM_map_congr]
    intro x hx
    obtain ⟨m1, m2⟩ := mem_splitSlash hx
    obtain ⟨n1, n2⟩ := h.numbers x hx
    exact evalPart_component x (List.all_eq_true.mpr fun c hc => List.all_eq_true.mp hv c (m1 c hc)) m2 n1 n2
  · rw [if_neg hv, C.pure_eq]
    have : pathIndexes path = none := by
      unfold pathIndexes
      rw [Option.eq_none_iff_forall_ne_some]
      intro is he
      apply hv
      rw [List.all_eq_true]
      intro c hc
      exact indexes_chars he c hc
    rw [this]
    rfl

theorem pathLike_join (ps : List PathPart) (h : ps ≠ []) (m e : Bool) :
    PathLike ((if m then [109, 47] else []) ++ joinParts ps ++ if e then [47] else []) := by
  obtain ⟨c, cs, hc, hd⟩ := joinParts_cons ps h
  have hne : c ≠ 109 := by rintro rfl; simp [isDigit] at hd
  refine ⟨fun h1 => ?_, ?_, fun x hx => ?_⟩
  · cases m
    · rw [hc] at h1; simp [hne] at h1
    · rw [hc]; simp
  · rw [hc]; cases m <;> simp
  · rw [pathText_join ps h, splitSlash_join ps h] at hx
    obtain ⟨p, -, rfl⟩ := List.mem_map.mp hx
    have hr : ∀ c ∈ p.mark.head?, isDigit c = false := by
      rcases p.isMark with h | h | h <;> rw [h] <;> simp [isDigit]
    rw [PathPart.text, (takeWhile_dropWhile_append p.isNumber.2.1 hr).1]
    exact ⟨p.isNumber.1, p.isNumber.2.2⟩

/-- C38: the path m/p1/…/pn, with or without "m/" and a final slash, gives exactly the indexes. -/
theorem C38_prv_path (ps : List PathPart) (h : ps ≠ []) (m e : Bool) :
    prvPath ((if m then [109, 47] else []) ++ joinParts ps ++ if e then [47] else []) = .ok (some (ps.map fun p => UInt32.ofNat p.index)) := by
  rw [C38_prv_partial _ (pathLike_join ps h m e), pathIndexes_join ps h]
  simp

/-- The path 44h/0'/5. -/
def somePath : List PathPart :=
  [⟨[52, 52], [104], by decide, by decide⟩, ⟨[48], [39], by decide, by decide⟩, ⟨[53], [], by decide, by decide⟩]

example : prvPath [109, 47, 52, 52, 104, 47, 48, 39, 47, 53] = .ok (some [2147483692, 2147483648, 5]) := C38_prv_path somePath (by decide) true false

/-- "m/1h2" is not a path. -/
example : PathLike [109, 47, 49, 104, 50] ∧ pathIndexes [109, 47, 49, 104, 50] = none := ⟨⟨by decide, by decide, by decide⟩, by decide⟩

/-- C38: a text with a character other than digits, '/', ''' and 'h' after the leading "m/" is rejected ('H' too). -/
theorem C38_prv_characters (path : Bytes) (c : UInt8) (h : path ≠ []) (h2 : 2 < path.length) (hc : c ∈ path.drop 2) (hv : prvChar c = false) :
    prvPath path = .ok none := by
  unfold prvPath pathBody
  dsimp only
  rw [if_neg (by rintro (⟨-, h1⟩ | h1); omega; exact h h1), C.bind_ok]
  have h47 : c ≠ 47 := by rintro rfl; simp [prvChar] at hv
  have key : ∀ t : Bytes, c ∈ t → c ∈ (if t.getLast? = some 47 then t.dropLast else t) := by
    intro t ht
    split
    · rename_i hl
      obtain ⟨ys, rfl⟩ := List.getLast?_eq_some_iff.mp hl
      rw [List.dropLast_concat]
      rcases List.mem_append.mp ht with ht | ht
      · exact ht
      · simp at ht; exact absurd ht h47
    · exact ht
  have hm : c ∈ (if path.head? = some 109 then path.drop 2 else path) := by
    split
    · exact hc
    · exact List.mem_of_mem_drop hc
  rw [if_neg]
  · rfl
  intro ha
  have := List.all_eq_true.mp ha c (key _ hm)
  have hv' : (decide (48 ≤ c) && decide (c ≤ 57) || c == 47 || c == 39 || c == 104) = false := hv
  rw [hv'] at this
  exact absurd this (by decide)

/-- "m/44H/0" -/
example : prvPath [109, 47, 52, 52, 72, 47, 48] = .ok none := C38_prv_characters _ 72 (by decide) (by decide) (by decide) (by decide)

/-- C38: a rejected path gives a key that is not valid: its secret is zero. -/
theorem C38_prv_rejected (k : HDPriv) (path : Bytes) (rnd : Nat → BN) (h : prvPath path = .ok none) :
    ∃ r, k.derivePath path rnd = .ok r ∧ r.num = zeros 32 := by
  unfold HDPriv.derivePath
  rw [h, C.bind_ok]
  exact ⟨{}, rfl, rfl⟩

/-- C38: otherwise the children with the indexes read are derived in order. -/
theorem C38_prv_derives (k : HDPriv) (path : Bytes) (is : List UInt32) (rnd : Nat → BN) (h : prvPath path = .ok (some is)) :
    k.derivePath path rnd = k.derive rnd is := by
  unfold HDPriv.derivePath
  rw [h, C.bind_ok]

/-! ### Public keys -/

theorem pubPathLoop_digits (t : Bytes) (done : List UInt32) (cur : UInt32) (x : Bytes) (xs : List Bytes) (hs : splitSlash t = x :: xs)
    (hx : x.all isDigit = true) (hx' : decimalFrom cur.toNat x < 2 ^ 31) (hxs : ∀ y ∈ xs, y.all isDigit = true ∧ decimal y < 2 ^ 31) :
    pubPathLoop t done cur = some (done ++ UInt32.ofNat (decimalFrom cur.toNat x) :: xs.map fun y => UInt32.ofNat (decimal y)) := by
  induction t generalizing done cur x xs with
  | nil =>
    simp only [splitSlash, List.cons.injEq] at hs
    obtain ⟨rfl, rfl⟩ := hs
    simp [pubPathLoop, decimalFrom]
  | cons c t ih =>
    unfold splitSlash at hs
    unfold pubPathLoop
    by_cases hc : c = 47
    · rw [if_pos hc] at hs ⊢
      simp only [List.cons.injEq] at hs
      obtain ⟨rfl, rfl⟩ := hs
      have h4 : ¬ cur ≥ hardenedIndex := by
        intro h
        have : (hardenedIndex).toNat ≤ cur.toNat := h
        have e : hardenedIndex.toNat = 2 ^ 31 := rfl
        have e2 : decimalFrom cur.toNat [] = cur.toNat := rfl
        omega
      rw [if_neg h4]
      match h : splitSlash t with
      | [] => exact absurd h (splitSlash_ne_nil t)
      | y :: ys =>
        rw [h] at hxs
        rw [ih _ 0 y ys h (hxs y (by simp)).1 (hxs y (by simp)).2 fun z hz => hxs z (by simp [hz])]
        simp [decimalFrom, decimal]
    · rw [if_neg hc] at hs ⊢
      match h : splitSlash t with
      | [] => exact absurd h (splitSlash_ne_nil t)
      | y :: ys =>
        rw [h] at hs
        simp only [List.cons.injEq] at hs
        obtain ⟨rfl, rfl⟩ := hs
        simp only [List.all_cons, Bool.and_eq_true] at hx
        obtain ⟨e1, e2, e3, e4⟩ := digit_toNat hx.1
        have h1 := le_decimalFrom (10 * cur.toNat + (c.toNat - 48)) y
        have h2 : decimalFrom cur.toNat (c :: y) = decimalFrom (10 * cur.toNat + (c.toNat - 48)) y := rfl
        rw [h2] at hx' ⊢
        have h3 : (cur * 10 + (c - 48).toUInt32).toNat = 10 * cur.toNat + (c.toNat - 48) := by
          rw [UInt32.toNat_add, UInt32.toNat_mul, UInt8.toNat_toUInt32, e1]
          simp
          omega
        rw [ih _ _ y ys h hx.2 (by rw [h3]; exact hx') hxs, h3]

theorem digits_component {x : Bytes} (hd : x.all isDigit = true) (h0 : x.takeWhile isDigit ≠ []) (hlt : decimal (x.takeWhile isDigit) < 2 ^ 31) :
    component x = some (decimal x) ∧ decimal x < 2 ^ 31 := by
  obtain ⟨h1, h2⟩ := takeWhile_dropWhile_append (r := []) hd (by simp)
  rw [List.append_nil] at h1 h2
  unfold component
  rw [h1] at h0 hlt ⊢
  rw [h2]
  dsimp only
  rw [if_neg (by rintro (h | h); exact h0 h; omega), if_pos rfl]
  exact ⟨rfl, hlt⟩

theorem marked_component {x : Bytes} {i : Nat} (h : component x = some i) (hi : i < 2 ^ 31) : x.all isDigit = true := by
  have hx : x.takeWhile isDigit ++ x.dropWhile isDigit = x := List.takeWhile_append_dropWhile
  have hd : (x.takeWhile isDigit).all isDigit = true := List.all_takeWhile
  unfold component at h
  dsimp only at h
  split at h
  · exact absurd h (by simp)
  · split at h
    · rename_i h1
      rw [h1, List.append_nil] at hx
      rwa [hx] at hd
    · split at h
      · simp only [Option.some.injEq] at h; omega
      · exact absurd h (by simp)

theorem mapM_eq_map {g : Bytes → Option Nat} {f : Bytes → Nat} {l : List Bytes} (h : ∀ x ∈ l, g x = some (f x)) : l.mapM g = some (l.map f) := by
  induction l with
  | nil => rfl
  | cons x l ih => rw [List.mapM_cons, h x (by simp), ih fun y hy => h y (by simp [hy])]; rfl

theorem mapM_all {g : Bytes → Option Nat} {P : Nat → Bool} {l : List Bytes} {is : List Nat} (h : l.mapM g = some is) (ha : is.all P = true) :
    ∀ x ∈ l, ∃ i, g x = some i ∧ P i = true := by
  induction l generalizing is with
  | nil => simp
  | cons y l ih =>
    rw [List.mapM_cons] at h
    intro x hx
    cases hg : g y with
    | none => rw [hg] at h; simp at h
    | some v =>
      cases hm : l.mapM g with
      | none => rw [hg, hm] at h; simp at h
      | some vs =>
        rw [hg, hm] at h
        have e : v :: vs = is := by simpa using h
        rw [← e] at ha
        simp only [List.all_cons, Bool.and_eq_true] at ha
        rcases List.mem_cons.mp hx with rfl | hx
        · exact ⟨v, hg, ha.1⟩
        · exact ih hm ha.2 x hx

/-- The characters accepted in a path for a public key. -/
def pubChar (c : UInt8) : Bool := (decide (48 ≤ c) && decide (c ≤ 57)) || c == 47

/-- C38: on texts whose numbers are below 2^31, public keys read the path as BIP32 means it and reject what is not a path or has a hardened
index. -/
theorem C38_pub_partial (path : Bytes) (h : PathLike path) : pubPath path = .ok ((pubPathIndexes path).map (·.map UInt32.ofNat)) := by
  unfold pubPath
  rw [pathBody_eq h, C.bind_ok]
  have e : (fun c : UInt8 => (decide (48 ≤ c) && decide (c ≤ 57)) || c == 47) = pubChar := rfl
  rw [e]
  by_cases hv : (pathText path).all pubChar = true
  · rw [if_pos hv, C.pure_eq]
    have hd : ∀ x ∈ splitSlash (pathText path), x.all isDigit = true := by
      intro x hx
      obtain ⟨m1, m2⟩ := mem_splitSlash hx
      rw [List.all_eq_true]
      intro c hc
      have h1 := List.all_eq_true.mp hv c (m1 c hc)
      have h2 := m2 c hc
      have : ∀ x : UInt8, pubChar x = true → x ≠ 47 → isDigit x = true := by apply forall_byte; decide +kernel
      exact this c h1 h2
    have hc : ∀ x ∈ splitSlash (pathText path), component x = some (decimal x) ∧ decimal x < 2 ^ 31 := fun x hx =>
      digits_component (hd x hx) (h.numbers x hx).1 (h.numbers x hx).2
    have hi : pathIndexes path = some ((splitSlash (pathText path)).map decimal) := mapM_eq_map fun x hx => (hc x hx).1
    have hp : pubPathIndexes path = some ((splitSlash (pathText path)).map decimal) := by
      unfold pubPathIndexes
      rw [hi, Option.bind_some, if_pos]
      rw [List.all_map, List.all_eq_true]
      intro x hx
      exact decide_eq_true (hc x hx).2
    rw [hp]
    match hs : splitSlash (pathText path) with
    | [] => exact absurd hs (splitSlash_ne_nil _)
    | x :: xs =>
      rw [hs] at hc hd
      rw [pubPathLoop_digits _ [] 0 x xs hs (hd x (by simp)) (hc x (by simp)).2 fun y hy => ⟨hd y (by simp [hy]), (hc y (by simp [hy])).2⟩]
      simp [decimalFrom, decimal]
  · rw [if_neg hv, C.pure_eq]
    have : pubPathIndexes path = none := by
      rw [Option.eq_none_iff_forall_ne_some]
      intro is he
      unfold pubPathIndexes at he
      match hi : pathIndexes path with
      | none => rw [hi] at he; simp at he
      | some js =>
        rw [hi, Option.bind_some] at he
        split at he
        · rename_i ha
          apply hv
          rw [List.all_eq_true]
          intro c hc
          by_cases h47 : c = 47
          · rw [h47]; decide
          · obtain ⟨x, hx, hcx⟩ := splitSlash_mem hc h47
            obtain ⟨i, g1, g2⟩ := mapM_all hi ha x hx
            have := List.all_eq_true.mp (marked_component g1 (of_decide_eq_true g2)) c hcx
            unfold isDigit at this
            unfold pubChar
            rw [this]
            rfl
        · exact absurd he (by simp)
    rw [this]
    rfl

/-- C38: a path without hardened indexes gives exactly the indexes for a public key. -/
theorem C38_pub_path (ps : List PathPart) (h : ps ≠ []) (hm : ∀ p ∈ ps, p.mark = []) (m e : Bool) :
    pubPath ((if m then [109, 47] else []) ++ joinParts ps ++ if e then [47] else []) = .ok (some (ps.map fun p => UInt32.ofNat p.index)) := by
  rw [C38_pub_partial _ (pathLike_join ps h m e), pubPathIndexes, pathIndexes_join ps h, Option.bind_some, if_pos]
  · simp
  · rw [List.all_map, List.all_eq_true]
    intro p hp
    have := p.isNumber.2.2
    simp [PathPart.index, hm p hp, this]

example : pubPath [109, 47, 48, 47, 49, 55, 47] = .ok (some [0, 17]) :=
  C38_pub_path [⟨[48], [], by decide, by decide⟩, ⟨[49, 55], [], by decide, by decide⟩] (by decide) (by decide) true true

example : pubPath [48, 47, 49, 55, 104] = .ok none := by
  rw [C38_pub_partial _ ⟨by decide, by decide, by decide⟩]; rfl

/-- C38: a rejected path gives a public key with the point (0, 0), which is not valid. -/
theorem C38_pub_rejected (k : HDPub) (path : Bytes) (rnd : Nat → BN) (h : pubPath path = .ok none) :
    ∃ r, k.derivePath path rnd = .ok r ∧ r.key.point = zeros 64 := by
  unfold HDPub.derivePath
  rw [h, C.bind_ok]
  exact ⟨{}, rfl, rfl⟩

theorem C38_pub_derives (k : HDPub) (path : Bytes) (is : List UInt32) (rnd : Nat → BN) (h : pubPath path = .ok (some is)) :
    k.derivePath path rnd = k.derive rnd is := by
  unfold HDPub.derivePath
  rw [h, C.bind_ok]

/-! ### Where the code and the claim disagree -/

/-- C38, code and claim disagree: for "", "m", "m/" and any other character after the 'm', a byte before the text is read, and the length
can become that of all memory. -/
theorem C38_undefined (c : UInt8) :
    prvPath [] = .ub ∧ prvPath [109] = .ub ∧ prvPath [109, c] = .ub ∧ pubPath [] = .ub ∧ pubPath [109] = .ub ∧ pubPath [109, c] = .ub := by
  simp [prvPath, pubPath, pathBody, C.bind_ub]

/-- C38, code and claim disagree: the character after a leading 'm' is not looked at ("m1/5" is read as "m//5"). -/
theorem C38_after_m (c d : UInt8) (t : Bytes) : prvPath (109 :: c :: t) = prvPath (109 :: d :: t) ∧ pubPath (109 :: c :: t) = pubPath (109 :: d :: t) := by
  have : pathBody (109 :: c :: t) = pathBody (109 :: d :: t) := by simp [pathBody]
  unfold prvPath pubPath
  rw [this]
  exact ⟨rfl, rfl⟩

theorem splitSlash_mid (t u : Bytes) : splitSlash (t ++ 47 :: u) = splitSlash t ++ splitSlash u := by
  induction t with
  | nil => simp [splitSlash]
  | cons c t ih =>
    rw [List.cons_append, splitSlash, splitSlash, ih]
    by_cases hc : c = 47
    · rw [if_pos hc, if_pos hc]; rfl
    · rw [if_neg hc, if_neg hc]
      match h : splitSlash t with
      | [] => exact absurd h (splitSlash_ne_nil t)
      | y :: ys => rfl

/-- C38, code and claim disagree: an empty component is read as 0, in the middle … -/
theorem C38_empty_component (t u : Bytes) : prvPathLoop (t ++ 47 :: 47 :: u) [] 0 = prvPathLoop (t ++ 47 :: 48 :: 47 :: u) [] 0 := by
  rw [prvPathLoop_start, prvPathLoop_start, splitSlash_mid, splitSlash_mid]
  show (splitSlash t ++ splitSlash ([] ++ 47 :: u)).mapM _ = (splitSlash t ++ splitSlash ([48] ++ 47 :: u)).mapM _
  rw [splitSlash_mid, splitSlash_mid, List.mapM_append, List.mapM_append, List.mapM_append, List.mapM_append]
  have : (splitSlash []).mapM (evalPart · 0) = (splitSlash [48]).mapM (evalPart · 0) := by decide
  rw [this]

/-- … and as the whole path; a mark alone is 0h; numbers are taken modulo 2^32 and not compared with 2^31; the last component of a path of a
public key can be hardened.  The texts are "/", "1//5", "h", "4294967297", "2147483650", "4294967297/3", "3/2147483650" and "m9/7". -/
theorem C38_wrong_accepted :
    prvPath [47] = .ok (some [0]) ∧ prvPath [49, 47, 47, 53] = .ok (some [1, 0, 5]) ∧
    prvPath [104] = .ok (some [0x80000000]) ∧ prvPath [52, 50, 57, 52, 57, 54, 55, 50, 57, 55] = .ok (some [1]) ∧
    prvPath [50, 49, 52, 55, 52, 56, 51, 54, 53, 48] = .ok (some [0x80000002]) ∧ pubPath [52, 50, 57, 52, 57, 54, 55, 50, 57, 55, 47, 51] = .ok (some [1, 3]) ∧
    pubPath [51, 47, 50, 49, 52, 55, 52, 56, 51, 54, 53, 48] = .ok (some [3, 0x80000002]) ∧ prvPath [109, 57, 47, 55] = .ok (some [0, 7]) := by
  refine ⟨rfl, rfl, rfl, rfl, rfl, rfl, rfl, rfl⟩

example : pathIndexes [47] = none ∧ pathIndexes [49, 47, 47, 53] = none ∧ pathIndexes [104] = none ∧
    pathIndexes [52, 50, 57, 52, 57, 54, 55, 50, 57, 55] = none ∧ pathIndexes [50, 49, 52, 55, 52, 56, 51, 54, 53, 48] = none ∧
    pathIndexes [109, 57, 47, 55] = none := by decide +kernel

end UB
