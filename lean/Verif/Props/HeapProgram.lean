import Verif.Lemmas.HeapProgram

/-! # C75, C76: scripts and witnesses as objects on a heap

Programs that construct, copy, assign, fill, clear, parse and destroy scripts and witnesses, with any number of variables and
statements, on a heap where using memory that is not owned is an error. -/

namespace UB
open Heap Spec

/-- The variable a statement constructs, changes or destroys. -/
def Op.target : Op → Nat
  | .newScript x | .ofBuffer x _ | .copyScript x _ | .assignScript x _ | .pushByte x _ | .pushData x _ | .pushScript x _ | .clearScript x
  | .parseScript x _ | .newWitness x | .copyWitness x _ | .assignWitness x _ | .pushItem x _ | .pushItemScript x _ | .clearWitness x
  | .parseWitness x _ | .destroy x => x

theorem run_ok : ∀ (ops : List Op) {W : World} {vs : Vals} {L : Finset Nat} (_ : Inv W vs L) (_ : W.heap.Generous) (_ : AllAllowed ops vs),
    ∃ W' L', W.run ops = .ok W' ∧ Inv W' (vs.run ops) L' ∧ W'.heap.denies = W.heap.denies ∧
      (Tidy W → AllNeat ops vs → Tidy W' ∧ L'.card = L.card + allLosses ops vs) := by
  intro ops
  induction ops with
  | nil => intro W vs L I _ _; exact ⟨W, L, rfl, I, rfl, fun t _ => ⟨t, rfl⟩⟩
  | cons op ops ih =>
    intro W vs L I g ha
    obtain ⟨sm, ok, ha'⟩ := ha
    have sm' : (vs.step op).Small := by
      cases ops with
      | nil => exact ha'
      | cons _ _ => exact ha'.1
    obtain ⟨W1, vs1, E, s⟩ := step_ok I op ok
    have e1 := s.val g ⟨sm, sm'⟩
    subst e1
    have g1 : W1.heap.Generous := by
      unfold Heap.Generous
      rw [s.denies]
      exact g
    obtain ⟨W', L', hr, I', hd, hn⟩ := ih s.inv g1 ha'
    refine ⟨W', L', ?_, I', hd.trans s.denies, fun t n => ?_⟩
    · rw [World.run, s.run, C.bind_ok]
      exact hr
    · obtain ⟨t1, c1⟩ := s.neat t g ⟨sm, sm'⟩ n.1
      obtain ⟨t', c'⟩ := hn t1 n.2
      refine ⟨t', ?_⟩
      rw [c', Finset.card_union_of_disjoint s.dis, c1, allLosses, Nat.add_assoc]

theorem World.run_append : ∀ (ops1 ops2 : List Op) (W : World), W.run (ops1 ++ ops2) = (do let W ← W.run ops1; W.run ops2) := by
  intro ops1
  induction ops1 with
  | nil => intro ops2 W; rfl
  | cons op ops1 ih =>
    intro ops2 W
    simp only [List.cons_append, World.run]
    cases hs : W.step op with
    | ub => rfl
    | ok W1 => rw [C.bind_ok, C.bind_ok, ih]

theorem Vals.run_append : ∀ (ops1 ops2 : List Op) (vs : Vals), Vals.run (ops1 ++ ops2) vs = Vals.run ops2 (Vals.run ops1 vs) := by
  intro ops1
  induction ops1 with
  | nil => intro ops2 vs; rfl
  | cons op ops1 ih => intro ops2 vs; exact ih ops2 _

theorem allAllowed_append : ∀ {ops1 ops2 : List Op} {vs : Vals}, AllAllowed (ops1 ++ ops2) vs → AllAllowed ops1 vs ∧ AllAllowed ops2 (Vals.run ops1 vs) := by
  intro ops1
  induction ops1 with
  | nil =>
    intro ops2 vs h
    refine ⟨?_, h⟩
    cases ops2 with
    | nil => exact h
    | cons _ _ => exact h.1
  | cons op ops1 ih =>
    intro ops2 vs h
    obtain ⟨h1, h2, h3⟩ := h
    obtain ⟨h4, h5⟩ := ih h3
    exact ⟨⟨h1, h2, h4⟩, h5⟩

theorem Vals.put_ne {vs : Vals} {x y : Nat} {v : Option Val} (h : y ≠ x) : vs.put x v y = vs y := if_neg h

theorem Vals.step_cases (vs : Vals) (op : Op) : vs.step op = vs ∨ ∃ v, vs.step op = vs.put op.target v := by
  cases op <;> simp only [Vals.step, Op.target]
  all_goals
    repeat' split
    all_goals first | exact Or.inl rfl | exact Or.inr ⟨_, rfl⟩

theorem Vals.step_ne {vs : Vals} {op : Op} {y : Nat} (h : y ≠ op.target) : vs.step op y = vs y := by
  rcases Vals.step_cases vs op with e | ⟨v, e⟩
  · rw [e]
  · rw [e, Vals.put_ne h]

theorem Vals.run_ne : ∀ (ops : List Op) {vs : Vals} {y : Nat}, (∀ op ∈ ops, op.target ≠ y) → Vals.run ops vs y = vs y := by
  intro ops
  induction ops with
  | nil => intro vs y _; rfl
  | cons op ops ih =>
    intro vs y h
    rw [Vals.run, ih fun o ho => h o (List.mem_cons_of_mem _ ho)]
    exact Vals.step_ne (Ne.symm (h op List.mem_cons_self))

/-- What can be read from a script variable. -/
theorem Inv.read_script {W : World} {vs : Vals} {L : Finset Nat} (I : Inv W vs L) {x : Nat} {v : Script} (h : vs x = some (.script v)) (hf : v.Fits) :
    W.contents x = .ok v.bytes := by
  obtain ⟨p, hp, a, -⟩ := I.script h
  unfold World.contents
  rw [hp]
  show W.heap.read p 0 v.scriptLen = _
  by_cases h0 : v.scriptLen = 0
  · simp [Heap.read, h0, Script.bytes]
  · have := hf.1
    exact read_all (a.block (by rintro e; simp [e] at this; omega)) hf.1

/-- What can be read from a witness variable. -/
theorem Inv.read_witness {W : World} {vs : Vals} {L : Finset Nat} (I : Inv W vs L) {x : Nat} {v : Witness} {e : Bool} (h : vs x = some (.witness v e)) :
    W.contents x = .ok v.arr := by
  obtain ⟨p, hp, a, -⟩ := I.witness h
  unfold World.contents
  rw [hp]
  show W.heap.read p 0 v.arr.length = _
  by_cases h0 : v.arr = []
  · simp [Heap.read, h0]
  · rw [read_all (a.block h0) (Nat.le_refl _), List.take_length]

/-- A program of allowed statements, from the start. -/
theorem start_ok (denies : Nat → Nat → Bool) (g : (World.init denies).heap.Generous) (ops : List Op) (ha : AllAllowed ops fun _ => none) :
    ∃ W L, (World.init denies).run ops = .ok W ∧ Inv W (Vals.run ops fun _ => none) L ∧ W.heap.denies = denies ∧
      (AllNeat ops (fun _ => none) → L.card = allLosses ops fun _ => none) := by
  obtain ⟨W, L, h1, h2, h3, h4⟩ := run_ok ops (Inv.init denies) g ha
  refine ⟨W, L, h1, h2, h3, fun n => ?_⟩
  have := (h4 (fun x o e => by cases e) n).2
  simpa using this

/-- C75: every program of allowed statements runs without memory error, and at its end every variable has the fields and the bytes
that it has where variables are values. -/
theorem C75_values (denies : Nat → Nat → Bool) (g : (World.init denies).heap.Generous) (ops : List Op) (ha : AllAllowed ops fun _ => none) :
    ∃ W, (World.init denies).run ops = .ok W ∧ ∀ x,
      (Vals.run ops (fun _ => none) x = none → W.objs x = none) ∧
      (∀ v, Vals.run ops (fun _ => none) x = some (.script v) → ∃ o, W.objs x = some (.script o) ∧ o.status = v.status ∧ o.bytesParsed = v.bytesParsed ∧
        o.lenLen = v.lenLen ∧ o.scriptLen = v.scriptLen ∧ (v.Fits → W.contents x = .ok v.bytes)) ∧
      (∀ v e, Vals.run ops (fun _ => none) x = some (.witness v e) → ∃ o, W.objs x = some (.witness o) ∧ o.status = v.status ∧
        o.numElements = v.numElements ∧ W.contents x = .ok v.arr) := by
  obtain ⟨W, L, h1, I, -, -⟩ := start_ok denies g ops ha
  refine ⟨W, h1, fun x => ⟨fun h => I.none h, fun v h => ?_, fun v e h => ?_⟩⟩
  · obtain ⟨p, hp, -⟩ := I.script h
    exact ⟨_, hp, rfl, rfl, rfl, rfl, I.read_script h⟩
  · obtain ⟨p, hp, -⟩ := I.witness h
    exact ⟨_, hp, rfl, rfl, I.read_witness h⟩

/-- C75: a copy holds what the original held, whatever happens to the original or to any other variable afterwards. -/
theorem C75_copies (denies : Nat → Nat → Bool) (g : (World.init denies).heap.Generous) (ops1 ops2 : List Op) (x y : Nat) (d : Bytes)
    (ha : AllAllowed (ops1 ++ .copyScript x y :: ops2) fun _ => none) (hx : ∀ op ∈ ops1, op.target ≠ x) (hx2 : ∀ op ∈ ops2, op.target ≠ x)
    (W1 : World) (h1 : (World.init denies).run ops1 = .ok W1) (o : HScript) (hy : W1.objs y = some (.script o)) (hc : W1.contents y = .ok d) :
    ∃ W, (World.init denies).run (ops1 ++ .copyScript x y :: ops2) = .ok W ∧ W.contents x = .ok d := by
  obtain ⟨W, L, h2, I, -, -⟩ := start_ok denies g _ ha
  obtain ⟨ha1, ha2⟩ := allAllowed_append ha
  obtain ⟨W1', L1, h1', I1, -, -⟩ := start_ok denies g _ ha1
  rw [h1] at h1'
  injection h1' with e
  subst e
  refine ⟨W, h2, ?_⟩
  -- the value of `y` when it is copied
  obtain ⟨v, hv⟩ : ∃ v, Vals.run ops1 (fun _ => none) y = some (.script v) := by
    have m := I1.vals y
    rw [hy] at m
    cases hvy : Vals.run ops1 (fun _ => none) y with
    | none => rw [hvy] at m; exact m.elim
    | some u =>
      rw [hvy] at m
      cases u with
      | script v => exact ⟨v, rfl⟩
      | witness v e => exact m.elim
  have hfit : v.Fits := ha2.2.1 v hv
  have hd : d = v.bytes := by
    rw [I1.read_script hv hfit] at hc
    injection hc with hc
    exact hc.symm
  have hnx : Vals.run ops1 (fun _ => none) x = none := Vals.run_ne ops1 hx
  have hfin : Vals.run (ops1 ++ .copyScript x y :: ops2) (fun _ => none) x = some (.script v.copy) := by
    rw [Vals.run_append, Vals.run, Vals.run_ne ops2 hx2]
    simp only [Vals.step, hnx, hv, Vals.put, if_pos]
  have hcf : v.copy.Fits ∧ v.copy.bytes = v.bytes := by
    unfold Script.copy
    split
    · refine ⟨⟨?_, hfit.2⟩, ?_⟩
      · simpa using hfit.1
      · simp [Script.bytes]
    · have : v.scriptLen = 0 := by omega
      exact ⟨⟨Nat.le_refl 0, by simp⟩, by simp [Script.bytes, this]⟩
  rw [I.read_script hfin hcf.1, hcf.2, hd]

/-- C75: the memory in use at the end of a program of neat statements: the blocks of its variables, and one for every push of a script
onto a script, which nothing refers to any more. -/
theorem C75_losses (denies : Nat → Nat → Bool) (g : (World.init denies).heap.Generous) (ops : List Op) (ha : AllAllowed ops fun _ => none)
    (hn : AllNeat ops fun _ => none) :
    ∃ W, ∃ L : Finset Nat, (World.init denies).run ops = .ok W ∧ L.card = allLosses ops (fun _ => none) ∧
      (∀ q, W.heap.blocks q ≠ none ↔ (∃ x, q ∈ Obj.owned (W.objs x)) ∨ q ∈ L) ∧ ∀ x, Disjoint (Obj.owned (W.objs x)) L := by
  obtain ⟨W, L, h1, I, -, h4⟩ := start_ok denies g ops ha
  exact ⟨W, L, h1, h4 hn, I.live, I.lost⟩

/-- C75: once all variables are gone, the memory still in use is one block for every push of a script onto a script; without such
pushes, none. -/
theorem C75_rest (denies : Nat → Nat → Bool) (g : (World.init denies).heap.Generous) (ops : List Op) (ha : AllAllowed ops fun _ => none)
    (hn : AllNeat ops fun _ => none) (hend : ∀ x, Vals.run ops (fun _ => none) x = none) :
    ∃ W, ∃ L : Finset Nat, (World.init denies).run ops = .ok W ∧ L.card = allLosses ops (fun _ => none) ∧ ∀ q, W.heap.blocks q ≠ none ↔ q ∈ L := by
  obtain ⟨W, L, h1, I, -, h4⟩ := start_ok denies g ops ha
  refine ⟨W, L, h1, h4 hn, fun q => (I.live q).trans ⟨fun h => ?_, Or.inr⟩⟩
  rcases h with ⟨x, hx⟩ | h
  · rw [I.none (hend x)] at hx
    simp [Obj.owned] at hx
  · exact h

/-- The statements about scripts only, without parsing. -/
def Op.scripts : Op → Prop
  | .newScript _ | .ofBuffer _ _ | .copyScript _ _ | .assignScript _ _ | .pushByte _ _ | .pushData _ _ | .pushScript _ _ | .clearScript _ | .destroy _ => True
  | _ => False

/-- The statements other than parsing and the end of a lifetime. -/
def Op.builds : Op → Prop
  | .parseScript _ _ | .parseWitness _ _ | .destroy _ => False
  | _ => True

theorem C.bind_inv {α β : Type} {x : C α} {f : α → C β} {b : β} (h : (x >>= f) = .ok b) : ∃ a, x = .ok a ∧ f a = .ok b := by
  cases x with
  | ub => cases h
  | ok a => exact ⟨a, rfl, h⟩

theorem World.step_scripts {W W' : World} {op : Op} (h : W.step op = .ok W') (ho : op.scripts) :
    W' = W ∨ ∃ x o h, W' = W.put x o h ∧ ∀ w, o ≠ some (.witness w) := by
  cases op <;> simp only [Op.scripts] at ho <;> simp only [World.step] at h
  all_goals
    repeat' split at h
    all_goals
      first
      | exact Or.inl (C.ok.inj h).symm
      | exact Or.inr ⟨_, _, _, (C.ok.inj h).symm, fun w c => by cases c⟩
      | (obtain ⟨a, ha, h⟩ := C.bind_inv h
         exact Or.inr ⟨_, _, _, (C.ok.inj h).symm, fun w c => by cases c⟩)

/-- C75: statements about scripts other than parsing are free of memory errors whatever requests for memory are refused. -/
theorem C75_any_allocator (denies : Nat → Nat → Bool) (ops : List Op) (ho : ∀ op ∈ ops, op.scripts) : ∃ W, (World.init denies).run ops = .ok W := by
  have main : ∀ (ops : List Op) (W : World) (vs : Vals) (L : Finset Nat), Inv W vs L → AllFits vs → (∀ x w, W.objs x ≠ some (.witness w)) →
      (∀ op ∈ ops, op.scripts) → ∃ W', W.run ops = .ok W' := by
    intro ops
    induction ops with
    | nil => intro W _ _ _ _ _ _; exact ⟨W, rfl⟩
    | cons op ops ih =>
      intro W vs L I hf hw ho
      have hop := ho op List.mem_cons_self
      have hnp : ¬ op.parses := by cases op <;> simp only [Op.scripts, Op.parses] at hop ⊢ <;> simp
      have hal : Allowed vs op := by
        cases op <;> simp only [Op.scripts] at hop <;> simp only [Allowed]
        case copyScript x y => exact hf y
        case assignScript x y => exact ⟨hf x, hf y⟩
        case pushByte x c => exact hf x
        case pushData x d => exact hf x
        case pushScript x y => exact ⟨hf x, hf y⟩
        case clearScript x => exact hf x
        case destroy x =>
          intro v e hv
          obtain ⟨p, hp, -⟩ := I.witness hv
          exact absurd hp (hw x _)
      obtain ⟨W1, vs1, E, s⟩ := step_ok I op hal
      have hw1 : ∀ x w, W1.objs x ≠ some (.witness w) := by
        rcases World.step_scripts s.run hop with e | ⟨x, o, h, e, hn⟩
        · rw [e]; exact hw
        · intro y w
          rw [e]
          show (if y = x then o else W.objs y) ≠ _
          split
          · exact hn w
          · exact hw y w
      obtain ⟨W', hr⟩ := ih W1 vs1 _ s.inv (s.fits hf hnp) hw1 fun o h => ho o (List.mem_cons_of_mem _ h)
      exact ⟨W', by rw [World.run, s.run, C.bind_ok]; exact hr⟩
  exact main ops _ _ _ (Inv.init denies) (fun x v e => by cases e) (fun x w e => by cases e) ho

/-- C76: among the statements other than parsing only the destructor of a witness can be a memory error: without it, whatever requests
for memory are refused, there is none. -/
theorem C76_any_allocator (denies : Nat → Nat → Bool) (ops : List Op) (ho : ∀ op ∈ ops, op.builds) : ∃ W, (World.init denies).run ops = .ok W := by
  have main : ∀ (ops : List Op) (W : World) (vs : Vals) (L : Finset Nat), Inv W vs L → AllFits vs → (∀ op ∈ ops, op.builds) → ∃ W', W.run ops = .ok W' := by
    intro ops
    induction ops with
    | nil => intro W _ _ _ _ _; exact ⟨W, rfl⟩
    | cons op ops ih =>
      intro W vs L I hf ho
      have hop := ho op List.mem_cons_self
      have hnp : ¬ op.parses := by cases op <;> simp only [Op.builds, Op.parses] at hop ⊢ <;> simp
      have hal : Allowed vs op := by
        cases op <;> simp only [Op.builds] at hop <;> simp only [Allowed]
        case copyScript x y => exact hf y
        case assignScript x y => exact ⟨hf x, hf y⟩
        case pushByte x c => exact hf x
        case pushData x d => exact hf x
        case pushScript x y => exact ⟨hf x, hf y⟩
        case clearScript x => exact hf x
        case pushItemScript x y => exact hf y
      obtain ⟨W1, vs1, E, s⟩ := step_ok I op hal
      obtain ⟨W', hr⟩ := ih W1 vs1 _ s.inv (s.fits hf hnp) fun o h => ho o (List.mem_cons_of_mem _ h)
      exact ⟨W', by rw [World.run, s.run, C.bind_ok]; exact hr⟩
  exact main ops _ _ _ (Inv.init denies) (fun x v e => by cases e) ho

/-- C76: destroying a witness is a memory error exactly if it holds no bytes and has held some before. -/
theorem C76_destroy (denies : Nat → Nat → Bool) (g : (World.init denies).heap.Generous) (ops : List Op) (ha : AllAllowed ops fun _ => none)
    (x : Nat) (v : Witness) (e : Bool) (hv : Vals.run ops (fun _ => none) x = some (.witness v e)) :
    (World.init denies).run (ops ++ [.destroy x]) = .ub ↔ v.arr = [] ∧ e = true := by
  obtain ⟨W, L, h1, I, -, -⟩ := start_ok denies g ops ha
  rw [World.run_append, h1, C.bind_ok]
  obtain ⟨p, hp, a, he⟩ := I.witness hv
  simp only [World.run, World.step, hp]
  constructor
  · intro hub
    by_contra hc
    obtain ⟨h', hd, -⟩ := HWitness.destroy_ok I.wf a (by
      intro c
      refine hc ⟨c.1, ?_⟩
      simpa [c.1] using c.2)
    rw [hd] at hub
    cases hub
  · intro hc
    rw [HWitness.destroy_ub a ⟨hc.1, by simp [hc.1, hc.2]⟩]
    rfl

theorem small_one {v : Witness} {e : Bool} (h : v.arr.length < 2 ^ 63) : Vals.Small (Vals.put (fun _ => none) 0 (some (.witness v e))) := by
  refine ⟨fun x u hu => ?_, fun x u e' hu => ?_⟩
  · unfold Vals.put at hu
    split at hu
    · injection hu with hu; cases hu
    · cases hu
  · unfold Vals.put at hu
    split at hu
    · injection hu with hu
      injection hu with hu _
      rw [← hu]
      exact h
    · cases hu

/-- C76: a witness which is filled, cleared and destroyed: the block is given back twice. -/
theorem C76_clear (denies : Nat → Nat → Bool) (g : (World.init denies).heap.Generous) (data : Bytes) (hd : data.length + lenVarIntN data.length ≤ 10000) :
    (World.init denies).run [.newWitness 0, .pushItem 0 data, .clearWitness 0, .destroy 0] = .ub := by
  have hlen : data.length < 2 ^ 64 := by omega
  obtain ⟨w1, n, e1, hw1⟩ : ∃ w1 n, ({} : Witness).push data = .ok (w1, n) ∧ w1.arr = compactSize data.length ++ data := by
    unfold Witness.push
    dsimp only
    rw [if_neg (by simp only [List.length_nil, Script.maxScriptSize]; omega), lenVarIntN_eq _ hlen, writeVarInt_zeros _ _ hlen (Nat.le_refl _), C.bind_ok]
    exact ⟨_, _, rfl, by simp [zeros]⟩
  have hne : w1.arr ≠ [] := by
    rw [hw1]
    simp [HWitness.compactSize_ne]
  have hl1 : w1.arr.length < 2 ^ 63 := by
    rw [hw1, List.length_append, ← lenVarIntN_eq _ hlen]
    omega
  have s0 : Vals.step (fun _ => none) (.newWitness 0) = Vals.put (fun _ => none) 0 (some (.witness {} false)) := rfl
  have s1 : Vals.step (Vals.put (fun _ => none) 0 (some (.witness {} false))) (.pushItem 0 data) = Vals.put (fun _ => none) 0 (some (.witness w1 true)) := by
    funext y
    simp only [Vals.step, Vals.put, if_pos, e1, Vals.wit]
    split <;> simp [hne]
  have s2 : Vals.step (Vals.put (fun _ => none) 0 (some (.witness w1 true))) (.clearWitness 0) = Vals.put (fun _ => none) 0 (some (.witness w1.clear true)) := by
    funext y
    simp only [Vals.step, Vals.put, if_pos, Vals.wit]
    split <;> simp
  refine (C76_destroy denies g [.newWitness 0, .pushItem 0 data, .clearWitness 0] ?_ 0 w1.clear true ?_).2 ⟨rfl, rfl⟩
  · refine ⟨⟨fun x v h => (by cases h), fun x v e h => (by cases h)⟩, trivial, ?_⟩
    rw [s0]
    refine ⟨small_one (by simp), trivial, ?_⟩
    rw [s1]
    refine ⟨small_one hl1, trivial, ?_⟩
    rw [s2]
    exact small_one (by simp [Witness.clear])
  · simp only [Vals.run]
    rw [s0, s1, s2]
    rfl

theorem small_put {vs : Vals} (h : vs.Small) {x : Nat} {v : Option Val}
    (hv : match v with | some (.script s) => s.scriptLen < 2 ^ 62 | some (.witness w _) => w.arr.length < 2 ^ 63 | none => True) : (vs.put x v).Small := by
  refine ⟨fun y u hu => ?_, fun y u e' hu => ?_⟩
  · unfold Vals.put at hu
    split at hu
    · rw [hu] at hv; exact hv
    · exact h.1 y u hu
  · unfold Vals.put at hu
    split at hu
    · rw [hu] at hv; exact hv
    · exact h.2 y u e' hu

theorem allAllowed_snoc : ∀ {ops : List Op} {op : Op} {vs : Vals}, AllAllowed ops vs → Allowed (Vals.run ops vs) op → (Vals.run (ops ++ [op]) vs).Small →
    AllAllowed (ops ++ [op]) vs := by
  intro ops
  induction ops with
  | nil => intro op vs h ha hs; exact ⟨h, ha, hs⟩
  | cons o ops ih => intro op vs h ha hs; exact ⟨h.1, h.2.1, ih h.2.2 ha hs⟩

theorem allAllowed_last : ∀ {ops : List Op} {vs : Vals}, AllAllowed ops vs → (Vals.run ops vs).Small := by
  intro ops
  induction ops with
  | nil => intro vs h; exact h
  | cons o ops ih => intro vs h; exact ih h.2.2

theorem emptied (denies : Nat → Nat → Bool) (g : (World.init denies).heap.Generous) (ops : List Op) (ha : AllAllowed ops fun _ => none)
    (x : Nat) (v : Witness) (e : Bool) (he : e = true) (op : Op) (hop : Allowed (Vals.run ops fun _ => none) op) (hv : v.arr = [])
    (hs : (Vals.run ops fun _ => none).step op = (Vals.run ops fun _ => none).put x (some (.witness v e))) :
    (World.init denies).run (ops ++ [op, .destroy x]) = .ub := by
  have hr : Vals.run (ops ++ [op]) (fun _ => none) = (Vals.run ops fun _ => none).put x (some (.witness v e)) := by
    rw [Vals.run_append]; exact hs
  have := (C76_destroy denies g (ops ++ [op]) (allAllowed_snoc ha hop (by
    rw [hr]
    exact small_put (allAllowed_last ha) (by simp [hv]))) x v e (by rw [hr]; simp [Vals.put])).2 ⟨hv, he⟩
  simpa using this

/-- C76: `clear` followed by the end of the lifetime is a memory error for every witness that has held bytes. -/
theorem C76_clear_any (denies : Nat → Nat → Bool) (g : (World.init denies).heap.Generous) (ops : List Op) (ha : AllAllowed ops fun _ => none)
    (x : Nat) (v : Witness) (hv : Vals.run ops (fun _ => none) x = some (.witness v true)) :
    (World.init denies).run (ops ++ [.clearWitness x, .destroy x]) = .ub :=
  emptied denies g ops ha x v.clear true rfl _ trivial rfl (by simp only [Vals.step, hv, Vals.wit, Bool.true_or])

/-- C76: so is assigning an empty witness, as Electrum.cpp:82 does for every input. -/
theorem C76_assign_empty (denies : Nat → Nat → Bool) (g : (World.init denies).heap.Generous) (ops : List Op) (ha : AllAllowed ops fun _ => none)
    (x y : Nat) (v w : Witness) (e : Bool) (hv : Vals.run ops (fun _ => none) x = some (.witness v true))
    (hw : Vals.run ops (fun _ => none) y = some (.witness w e)) (h0 : w.arr = []) (hxy : x ≠ y) :
    (World.init denies).run (ops ++ [.assignWitness x y, .destroy x]) = .ub :=
  emptied denies g ops ha x (v.assign w) true rfl _ trivial (by simp [Witness.assign, h0]) (by simp only [Vals.step, hv, hw, Vals.wit, Bool.true_or, if_neg hxy])

/-- C76: so is pushing an element that does not fit. -/
theorem C76_oversized (denies : Nat → Nat → Bool) (g : (World.init denies).heap.Generous) (ops : List Op) (ha : AllAllowed ops fun _ => none)
    (x : Nat) (v : Witness) (data : Bytes) (hv : Vals.run ops (fun _ => none) x = some (.witness v true))
    (hd : 10000 < v.arr.length + data.length + lenVarIntN data.length) :
    (World.init denies).run (ops ++ [.pushItem x data, .destroy x]) = .ub := by
  have e1 : v.push data = .ok (v.clear, 0) := by
    unfold Witness.push
    dsimp only
    rw [if_pos (by simp only [Script.maxScriptSize]; omega)]
  exact emptied denies g ops ha x v.clear true rfl _ trivial rfl (by simp only [Vals.step, hv, e1, Vals.wit, Bool.true_or])

/-- The allocator of a machine that refuses only what no machine can grant. -/
example : (World.init fun _ n => decide (2 ^ 63 ≤ n)).heap.Generous := by
  intro n size _
  simp [World.init]

theorem small_none : Vals.Small fun _ => none := ⟨fun _ _ h => (by cases h), fun _ _ _ h => (by cases h)⟩

theorem fits_some {vs : Vals} {x : Nat} {v : Script} (h : vs x = some (.script v)) (f : v.Fits) : vs.Fits x := by
  intro u hu
  rw [h] at hu
  injection hu with hu
  injection hu with hu
  exact hu ▸ f

/-- A program that copies a script, changes the original, pushes one onto the other and destroys both. -/
def sample : List Op := [.newScript 0, .pushByte 0 0x51, .copyScript 1 0, .pushByte 0 0x52, .pushScript 1 0, .destroy 0, .destroy 1]

/-- The values of the variables 0 and 1. -/
def two (a b : Option Val) : Vals := fun x => if x = 0 then a else if x = 1 then b else none

theorem put_zero (a b v : Option Val) : (two a b).put 0 v = two v b := by
  funext y
  simp only [Vals.put, two]
  split <;> rfl

theorem put_one (a b v : Option Val) : (two a b).put 1 v = two a v := by
  funext y
  simp only [Vals.put, two]
  by_cases h0 : y = 0
  · subst h0; simp
  · by_cases h1 : y = 1 <;> simp [h0, h1]

/-- It is allowed and neat, and one block is lost. -/
example : AllAllowed sample (fun _ => none) ∧ AllNeat sample (fun _ => none) ∧ allLosses sample (fun _ => none) = 1 := by
  have e0 : (fun _ => none : Vals) = two none none := by funext y; simp [two]
  have s1 : (two none none).step (.newScript 0) = two (some (.script {})) none := put_zero _ _ _
  have s2 : (two (some (.script {})) none).step (.pushByte 0 0x51) = two (some (.script { scriptLen := 1, arr := [0x51] })) none := put_zero _ _ _
  have s3 : (two (some (.script { scriptLen := 1, arr := [0x51] })) none).step (.copyScript 1 0) =
    two (some (.script { scriptLen := 1, arr := [0x51] })) (some (.script { scriptLen := 1, arr := [0x51] })) := put_one _ _ _
  have s4 : (two (some (.script { scriptLen := 1, arr := [0x51] })) (some (.script { scriptLen := 1, arr := [0x51] }))).step (.pushByte 0 0x52) =
    two (some (.script { scriptLen := 2, arr := [0x51, 0x52] })) (some (.script { scriptLen := 1, arr := [0x51] })) := put_zero _ _ _
  have s5 : (two (some (.script { scriptLen := 2, arr := [0x51, 0x52] })) (some (.script { scriptLen := 1, arr := [0x51] }))).step (.pushScript 1 0) =
    two (some (.script { scriptLen := 2, arr := [0x51, 0x52] })) (some (.script { scriptLen := 4, arr := [0x51, 0x02, 0x51, 0x52] })) := by
    have : ({ scriptLen := 1, arr := [0x51] } : Script).pushScript { scriptLen := 2, arr := [0x51, 0x52] } = .ok ({ scriptLen := 4, arr := [0x51, 0x02, 0x51, 0x52] }, 4) := by
      decide +kernel
    simp only [Vals.step, two, if_pos, if_neg Nat.one_ne_zero]
    rw [this]
    exact put_one _ _ _
  have s6 : (two (some (.script { scriptLen := 2, arr := [0x51, 0x52] })) (some (.script { scriptLen := 4, arr := [0x51, 0x02, 0x51, 0x52] }))).step (.destroy 0) =
    two none (some (.script { scriptLen := 4, arr := [0x51, 0x02, 0x51, 0x52] })) := put_zero _ _ _
  have s7 : (two none (some (.script { scriptLen := 4, arr := [0x51, 0x02, 0x51, 0x52] }))).step (.destroy 1) = two none none := put_one _ _ _
  have sm : ∀ a b : Option Val, (∀ v, a = some v → ∃ s : Script, v = .script s ∧ s.scriptLen < 2 ^ 62) → (∀ v, b = some v → ∃ s : Script, v = .script s ∧ s.scriptLen < 2 ^ 62) →
      (two a b).Small := by
    intro a b ha hb
    refine ⟨fun y u hu => ?_, fun y u e' hu => ?_⟩ <;>
    · unfold two at hu
      repeat' split at hu
      all_goals first
        | cases hu; done
        | (obtain ⟨s, e, l⟩ := ha _ hu; cases e; first | done | exact l)
        | (obtain ⟨s, e, l⟩ := hb _ hu; cases e; first | done | exact l)
  rw [e0]
  simp only [sample, AllAllowed, AllNeat, allLosses, s1, s2, s3, s4, s5, s6, s7]
  refine ⟨⟨sm _ _ ?_ ?_, trivial, sm _ _ ?_ ?_, fits_some rfl ⟨by decide, by decide⟩, sm _ _ ?_ ?_, fits_some rfl ⟨by decide, by decide⟩, sm _ _ ?_ ?_,
    fits_some rfl ⟨by decide, by decide⟩, sm _ _ ?_ ?_, ⟨fits_some rfl ⟨by decide, by decide⟩, fits_some rfl ⟨by decide, by decide⟩⟩, sm _ _ ?_ ?_,
    fun v e h => (by cases h), sm _ _ ?_ ?_, fun v e h => (by cases h), sm _ _ ?_ ?_⟩, by simp [Neat], rfl⟩
  all_goals
    intro v h
    cases h
    try exact ⟨_, rfl, by decide⟩

end UB
