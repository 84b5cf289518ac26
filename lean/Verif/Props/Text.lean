import Verif.Model.Text
import Verif.Lemmas.StringFrom
import Verif.Props.Hex
import Verif.Props.Base64
import Verif.Props.Serialize
import Verif.Props.PSBTWrite
import Verif.Props.PSBTPieces
import Verif.Props.Base64Any

/-
C79: text and Base64 forms of objects.
-/

namespace UB
open Spec

theorem cstr_append_zeros (t : Bytes) (h : ∀ c ∈ t, c ≠ 0) (n : Nat) : cstr (t ++ zeros n) = t := by
  unfold cstr
  rw [List.takeWhile_append_of_pos (by simpa using h)]
  cases n with
  | zero => simp [zeros]
  | succ n => rw [show zeros (n + 1) = 0 :: zeros n from rfl, List.takeWhile_cons_of_neg (by simp), List.append_nil]

theorem stringFrom_text (t : Bytes) (n : Nat) (h : ∀ c ∈ t, c ≠ 0) (hn : 0 < n) : stringFrom (t ++ zeros n) = .ok t := by
  rw [stringFrom_zeros t n hn, cstr_append_zeros t h]

theorem cstr_of_no_nul (t : Bytes) (h : ∀ c ∈ t, c ≠ 0) : cstr t = t := by
  have := cstr_append_zeros t h 0
  simpa [zeros] using this

theorem hexDigitChar_ne_zero (n : Nat) (h : n < 16) : hexDigitChar n ≠ 0 := by
  have : ∀ n < 16, hexDigitChar n ≠ 0 := by decide +kernel
  exact this n h

theorem hexText_no_nul (bs : Bytes) : ∀ c ∈ hexText bs, c ≠ 0 := by
  intro c hc
  unfold hexText at hc
  rw [List.mem_flatMap] at hc
  obtain ⟨x, -, hx⟩ := hc
  have := x.toNat_lt
  simp only [List.mem_cons, List.not_mem_nil, or_false] at hx
  rcases hx with rfl | rfl <;> exact hexDigitChar_ne_zero _ (by omega)

theorem lower_hexText (bs : Bytes) : (hexText bs).map lower = hexText bs := by
  have hl : ∀ n < 16, lower (hexDigitChar n) = hexDigitChar n := by decide +kernel
  unfold hexText
  rw [List.map_flatMap]
  congr 1
  funext x
  have := x.toNat_lt
  simp only [List.map_cons, List.map_nil]
  rw [hl _ (by omega), hl _ (by omega)]

theorem toHexString_eq (a : Bytes) : toHexString a = .ok (hexText a) := by
  unfold toHexString
  rw [C01_toHex_text a _ (by simp [zeros]; omega)]
  exact stringFrom_text _ _ (hexText_no_nul a) (by simp only [zeros, List.length_replicate]; omega)

theorem b64ch_ne_zero (u : Bool) (s : Nat) (hs : s < 64) : b64ch u s ≠ 0 := by
  have : ∀ u : Bool, ∀ s < 64, b64ch u s ≠ 0 := by decide +kernel
  exact this u s hs

theorem base64Text_no_nul (p u : Bool) : ∀ a : Bytes, ∀ c ∈ base64Text p u a, c ≠ 0
  | [], c, h => by rw [base64Text_nil] at h; simp at h
  | [a], c, h => by
    have ha := a.toNat_lt
    rw [base64Text_one] at h
    cases p <;> simp at h
    · rcases h with rfl | rfl <;> exact b64ch_ne_zero _ _ (by omega)
    · rcases h with rfl | rfl | rfl <;> first | exact b64ch_ne_zero _ _ (by omega) | decide
  | [a, b], c, h => by
    have ha := a.toNat_lt; have hb := b.toNat_lt
    rw [base64Text_two] at h
    cases p <;> simp at h
    · rcases h with rfl | rfl | rfl <;> exact b64ch_ne_zero _ _ (by omega)
    · rcases h with rfl | rfl | rfl | rfl <;> first | exact b64ch_ne_zero _ _ (by omega) | decide
  | a :: b :: d :: rest, c, h => by
    have ha := a.toNat_lt; have hb := b.toNat_lt; have hd := d.toNat_lt
    rw [base64Text_cons3, List.mem_append] at h
    rcases h with h | h
    · simp only [quad, List.mem_cons, List.not_mem_nil, or_false] at h
      rcases h with rfl | rfl | rfl | rfl <;> exact b64ch_ne_zero _ _ (by omega)
    · exact base64Text_no_nul p u rest c h

/-- C79: the `String` overload of `toBase64` gives the Base64 text of the bytes. -/
theorem C79_toBase64String (a : Bytes) (ha : a ≠ []) (f : B64Flags) :
    toBase64String a f = .ok (base64Text (!f.noPadding) f.urlSafe a) := by
  unfold toBase64String
  rw [C08_toBase64_text_partial a _ f ha (by simp [zeros]), C.bind_ok]
  dsimp only
  exact stringFrom_text _ _ (base64Text_no_nul _ _ a) (by simp only [zeros, List.length_replicate]; rw [← C08_toBase64Length]; omega)

/-- C79: hex text, in either case, becomes the Base64 text of the bytes it stands for. -/
theorem C79_hexToBase64 (t a : Bytes) (ht : t.map lower = hexText a) (ha : a ≠ []) (f : B64Flags) :
    hexToBase64 t f = .ok (base64Text (!f.noPadding) f.urlSafe a) := by
  have hl := congrArg List.length ht
  rw [List.length_map, length_hexText] at hl
  have hn : ∀ c ∈ t, c ≠ 0 := by
    rintro c hc rfl
    have : lower 0 ∈ t.map lower := List.mem_map_of_mem hc
    rw [ht, show lower 0 = 0 from rfl] at this
    exact hexText_no_nul a 0 this rfl
  unfold hexToBase64
  rw [cstr_of_no_nul t hn, C01_fromHex_hexText a t _ ht (by simp [zeros]; omega), C.bind_ok]
  dsimp only
  rw [List.take_left]
  exact C79_toBase64String a ha f

/-- C79: Base64 text becomes the lower case hex text of the bytes it stands for. -/
theorem C79_base64ToHex (a : Bytes) (ha : a ≠ []) (f : B64Flags) :
    base64ToHex (base64Text (!f.noPadding) f.urlSafe a) f = .ok (hexText a) := by
  unfold base64ToHex
  rw [cstr_of_no_nul _ (base64Text_no_nul _ _ a), C08_fromBase64Length_partial a f ha, C.bind_ok]
  obtain ⟨l, t, h1, h2⟩ := C08_roundtrip_partial a (zeros (toBase64Length a.length f)) (zeros (a.length + 1)) f true ha (fun _ => rfl) (by simp [zeros]) (by simp [zeros])
  rw [C08_toBase64_text_partial a _ f ha (by simp [zeros])] at h1
  have h3 := C.ok.inj h1
  rw [Prod.mk.injEq] at h3
  rw [← h3.1, ← h3.2, List.take_left] at h2
  rw [h2, C.bind_ok]
  dsimp only
  rw [List.take_left, toHexString_eq]

/-- C79: the two conversions of text are inverse to each other. -/
theorem C79_convert_roundtrip (a : Bytes) (ha : a ≠ []) (f : B64Flags) :
    (hexToBase64 (hexText a) f >>= fun t => base64ToHex t f) = .ok (hexText a) ∧
    (base64ToHex (base64Text (!f.noPadding) f.urlSafe a) f >>= fun t => hexToBase64 t f) = .ok (base64Text (!f.noPadding) f.urlSafe a) := by
  constructor
  · rw [C79_hexToBase64 _ a (lower_hexText a) ha f, C.bind_ok, C79_base64ToHex a ha f]
  · rw [C79_base64ToHex a ha f, C.bind_ok, C79_hexToBase64 _ a (lower_hexText a) ha f]

theorem stringOf_eq (ts : Option Nat → Nat → C Bytes) (bs : Bytes) (h : ts (some bs.length) 0 = .ok bs) : stringOf ts bs.length = .ok (hexText bs) := by
  unfold stringOf serialize
  dsimp only
  rw [show (2 * bs.length + 1) / 2 = bs.length by omega, h, C.bind_ok, C.pure_eq, C.bind_ok]
  dsimp only
  rw [hexChars_eq]
  exact stringFrom_text _ _ (hexText_no_nul bs) (by omega)

/-- C79: `toString()` of an object whose `to_stream` writes `bs` and whose `length()` is the length of `bs` is the hex text of `bs`. -/
theorem C79_toString (ts : Option Nat → Nat → C Bytes) (bs : Bytes) (h : ∀ cap off, ts cap off = .ok (window cap off bs)) :
    stringOf ts bs.length = .ok (hexText bs) := by
  apply stringOf_eq
  rw [h]
  simp [window]

/-- C79: `serialize(offset, len)` is the hex text of `len` bytes from `offset` on, of all the rest when `len` is zero. -/
theorem C79_serialize (ts : Option Nat → Nat → C Bytes) (bs : Bytes) (h : ∀ cap off, ts cap off = .ok (window cap off bs)) (off len : Nat)
    (ho : len = 0 → off ≤ bs.length) :
    serializeString ts bs.length off len = .ok (hexText (if len = 0 then bs.drop off else (bs.drop off).take len)) := by
  unfold serializeString
  rw [if_neg (by intro hh; have := ho hh.1; omega)]
  dsimp only
  rw [serialize_eq ts bs h, C.bind_ok]
  unfold serialized
  dsimp only
  rw [List.append_assoc, show List.replicate (2 * (if len = 0 then bs.length - off else len) - 2 * (List.take (2 * (if len = 0 then bs.length - off else len) / 2) (bs.drop off)).length) 0 ++ [0]
    = zeros (2 * (if len = 0 then bs.length - off else len) - 2 * (List.take (2 * (if len = 0 then bs.length - off else len) / 2) (bs.drop off)).length + 1) by
      rw [zeros, ← List.replicate_succ'], stringFrom_text _ _ (hexText_no_nul _) (by omega)]
  congr 2
  by_cases hl : len = 0
  · rw [if_pos hl, if_pos hl, List.take_of_length_le (by rw [List.length_drop]; omega)]
  · rw [if_neg hl, if_neg hl, show 2 * len / 2 = len by omega]

/-- C79: with the default length an offset past the end is undefined behaviour. -/
theorem C79_serialize_undefined (ts : Option Nat → Nat → C Bytes) (length off : Nat) (h : length < off) : serializeString ts length off 0 = .ub := by
  unfold serializeString
  rw [if_pos ⟨rfl, h⟩]

/-- C79: parsing hex text, in either case, is parsing the bytes. -/
theorem C79_parse (t bs : Bytes) (h : t.map lower = hexText bs) : (hexStream t).abs = .of bs := by
  have hn : ∀ c ∈ t, c ≠ 0 := by
    rintro c hc rfl
    have : lower 0 ∈ t.map lower := List.mem_map_of_mem hc
    rw [h, show lower 0 = 0 from rfl] at this
    exact hexText_no_nul bs 0 this rfl
  unfold hexStream
  rw [cstr_of_no_nul t hn, C60_hex_text t bs h]
  rfl

/-- C79: a transaction, written as text and parsed again. -/
theorem C79_tx_partial (t : Tx) (x : Transaction) (h : t.Holds x) (hs : SmallTx x) :
    ∃ s, stringOf t.toStream t.length = .ok s ∧ s = hexText (txBytes x) ∧ (hexStream s).abs = .of (txBytes x) := by
  have e : t.length = (txBytes x).length := by
    have := hs.ins; have := hs.outs
    exact Tx.length_eq t x h (by omega) (by omega) hs.inScripts hs.outScripts (fun i hi => by have := hs.stacks i hi; omega)
  refine ⟨_, ?_, rfl, C79_parse _ _ (lower_hexText _)⟩
  rw [e]
  exact C79_toString _ _ (Tx.toStream_eq t x h hs)

theorem Spec.PsbtDoc.kept_kept (d : PsbtDoc) : d.kept.kept = d.kept := by
  unfold kept
  simp only [List.map_map, PsbtDoc.mk.injEq, true_and]
  refine ⟨?_, rfl⟩
  apply List.map_congr_left
  intro fs _
  simp only [Function.comp, List.filterMap_map]
  rw [show (fun x : SigEntry => (InField.partialSig { x with type := 1 }).sig) = some ∘ (fun g : SigEntry => { g with type := 1 }) from rfl, List.filterMap_eq_map, List.map_map]
  rfl

theorem PSBT.toText_eq {p : PSBT} {d : PsbtDoc} (hd : d.Ok) (h : p.Holds d) : p.toText = .ok (hexText d.kept.bytes) := by
  obtain ⟨n, h1, h2, -⟩ := C57_written_partial hd h (some d.kept.bytes.length)
  unfold toText
  rw [h2, C.bind_ok]
  apply stringOf_eq
  unfold stream
  rw [h1]
  simp [window]

/-- C79: `toString()` of a PSBT is the hex text, `toBase64()` the standard Base64 text of the transaction and its signatures. -/
theorem C79_psbt_written_partial {p : PSBT} {d : PsbtDoc} (hd : d.Ok) (h : p.Holds d) :
    p.toText = .ok (hexText d.kept.bytes) ∧ p.toBase64 = .ok (base64Text true false d.kept.bytes) := by
  refine ⟨PSBT.toText_eq hd h, ?_⟩
  unfold PSBT.toBase64
  rw [PSBT.toText_eq hd h, C.bind_ok]
  refine C79_hexToBase64 _ _ (lower_hexText _) ?_ ⟨false, false⟩
  rw [d.kept.bytes_eq]
  simp [psbtMagic]

theorem Spec.PsbtDoc.bytes_ne (d : PsbtDoc) (rest : Bytes) : d.bytes ++ rest ≠ [] := by
  rw [d.bytes_eq]
  simp [psbtMagic]

theorem hexText_ne {bs : Bytes} (h : bs ≠ []) : hexText bs ≠ [] := by
  intro e
  have := length_hexText bs
  rw [e, List.length_nil] at this
  exact h (List.length_eq_zero_iff.mp (by omega))

theorem PSBT.parseBase64_eq (junk : Nat → Bytes) (p : PSBT) (bs : Bytes) (h : bs ≠ []) :
    p.parseBase64 junk (base64Text true false bs) = .ok ((PSBT.fromStream junk p (.of bs)).1, bs.length) := by
  unfold parseBase64
  have e := C79_base64ToHex bs h ⟨false, false⟩
  rw [show (!(⟨false, false⟩ : B64Flags).noPadding) = true from rfl, show (⟨false, false⟩ : B64Flags).urlSafe = false from rfl] at e
  rw [e, C.bind_ok, if_neg (fun hh => hexText_ne h hh.1), C79_parse _ bs (lower_hexText bs), length_hexText, C.pure_eq]
  congr 2
  omega

/-- C79: `parseBase64` of the Base64 text of a document, whatever follows it in the encoded bytes, parses the document; the result counts all the encoded bytes. -/
theorem C79_psbt_parse_partial (junk : Nat → Bytes) {p : PSBT} (hp : p.Clean) (d : PsbtDoc) (hd : d.Ok) (rest : Bytes) :
    ∃ q, p.parseBase64 junk (base64Text true false (d.bytes ++ rest)) = .ok (q, d.bytes.length + rest.length) ∧ q.status = .done ∧ q.Holds d := by
  obtain ⟨h1, h2, -⟩ := C57_parse_partial junk hp d hd rest
  refine ⟨_, ?_, h1, h2⟩
  rw [PSBT.parseBase64_eq junk p _ (d.bytes_ne rest), List.length_append]

/-- C79: what `toBase64()` wrote, `parseBase64` reads back: the transaction and the signatures. -/
theorem C79_psbt_roundtrip_partial (junk : Nat → Bytes) {p p' : PSBT} (hp' : p'.Clean) {d : PsbtDoc} (hd : d.Ok) (h : p.Holds d) :
    ∃ t q, p.toBase64 = .ok t ∧ p'.parseBase64 junk t = .ok (q, d.kept.bytes.length) ∧ q.status = .done ∧ q.Holds d.kept ∧ q.toBase64 = .ok t := by
  obtain ⟨q, h1, h2, h3⟩ := C79_psbt_parse_partial junk hp' d.kept (d.kept_ok hd) []
  rw [List.append_nil] at h1
  refine ⟨_, q, (C79_psbt_written_partial hd h).2, h1, h2, h3, ?_⟩
  rw [(C79_psbt_written_partial (d.kept_ok hd) h3).2, d.kept_kept]

/-- C79: a PSBT that was refused stays refused, whatever is parsed next. -/
theorem C79_failed_stays (junk : Nat → Bytes) (p : PSBT) (h : p.status = .failed) (t s : Bytes) (hs : base64ToHex t ⟨false, false⟩ = .ok s) :
    p.parseBase64 junk t = .ok (p, s.length / 2) := by
  unfold PSBT.parseBase64
  rw [hs, C.bind_ok, if_neg (by rw [h]; simp)]
  unfold PSBT.fromStream
  rw [if_pos (Or.inl h)]
  rfl

/-- C79: text that is not Base64 makes a clean object fail, and 0 is returned. -/
theorem C79_psbt_bad_text (junk : Nat → Bytes) {p : PSBT} (hp : p.Clean) (t : Bytes) (h : base64ToHex t ⟨false, false⟩ = .ok []) :
    ∃ q, p.parseBase64 junk t = .ok (q, 0) ∧ q.status = .failed := by
  refine ⟨_, ?_, C74_short_first junk hp [] (by decide)⟩
  unfold PSBT.parseBase64
  rw [h, C.bind_ok, if_neg (by rw [hp.status]; simp), C79_parse [] [] rfl]
  rfl

/-- C79: which texts are refused: those of a length that is a multiple of four and do not decode, and those of another length unless their third character is the padding. -/
theorem C79_refused (t : Bytes) (h0 : t ≠ []) (hz : ∀ c ∈ t, c ≠ 0) (h : (t.length % 4 = 0 ∧ decode64 false t = none) ∨ (t.length % 4 ≠ 0 ∧ t[2]? ≠ some 61)) :
    base64ToHex t ⟨false, false⟩ = .ok [] := by
  unfold base64ToHex
  rw [cstr_of_no_nul t hz]
  rcases h with ⟨hm, hd⟩ | ⟨hm, hd⟩
  · obtain ⟨n, e, -⟩ := fromBase64Length_le t false h0 hm
    rw [e, C.bind_ok, C80_exact t _ false true h0 hz hm n e (by simp [zeros]), hd, C.bind_ok]
    rfl
  · have e : fromBase64Length t ⟨false, false⟩ = .ok 0 := by unfold fromBase64Length; simp [hm]
    rw [e, C.bind_ok]
    unfold fromBase64
    rw [e, C.bind_ok, if_neg (by omega)]
    have hloop : fromBase64Loop ⟨false, false⟩ true (zeros (0 + 1)).length t.length t [] = .ok none := by
      rw [show (zeros (0 + 1)).length = 1 from rfl]
      match t, h0, hz, hm, hd with
      | [_], _, _, _, _ => rfl
      | [_, _], _, _, _, _ => rfl
      | [_, _, _], _, _, _, _ => rfl
      | c1 :: c2 :: c3 :: c4 :: rest, _, hz, _, hd =>
        have hg := b64Step_group false true c1 c2 c3 c4 rest (hz c1 (by simp)) (hz c2 (by simp)) (hz c3 (by simp)) (hz c4 (by simp))
        have h3 : c3 ≠ 61 := fun h => hd (by rw [h]; rfl)
        rw [List.length_cons, fromBase64Loop]
        rw [show (List.isEmpty (c1 :: c2 :: c3 :: c4 :: rest)) = false from rfl,
          show (decide ((c1 :: c2 :: c3 :: c4 :: rest).length ≤ 3) && !(⟨false, false⟩ : B64Flags).noPadding) = false by simp]
        simp only [Bool.false_eq_true, if_false]
        revert hg
        cases value64 false c1 with
        | none => dsimp only; intro hg; rw [hg]
        | some a =>
        cases value64 false c2 with
        | none => dsimp only; intro hg; rw [hg]
        | some b =>
        cases value64 false c3 with
        | none => dsimp only; rw [if_neg h3]; intro hg; rw [hg]
        | some c =>
        cases value64 false c4 with
        | none =>
          dsimp only
          split
          · rintro ⟨v, hg, -⟩; rw [hg]; rfl
          · intro hg; rw [hg]
        | some d => dsimp only; rintro ⟨v, hg, -⟩; rw [hg]; rfl
    rw [hloop, C.bind_ok]
    rfl

/-- C79: the empty text is undefined behaviour. -/
theorem C79_psbt_empty_undefined (junk : Nat → Bytes) (p : PSBT) : p.parseBase64 junk [] = .ub := rfl

theorem third_char (bs : Bytes) (h : 3 ≤ bs.length) (t : Bytes) : (base64Text true false bs ++ t)[2]? ≠ some 61 := by
  match bs, h with
  | a :: b :: c :: rest, _ =>
    have hb := b.toNat_lt; have hc := c.toNat_lt
    rw [base64Text_cons3]
    show some _ ≠ some 61
    intro e
    have := Option.some.inj e
    have h2 := ch_ne_eq false (b.toNat % 16 * 4 + c.toNat / 64) (by omega)
    rw [this] at h2
    simp at h2

/-- C79: text of a document with one to three characters more, such as a line feed, is refused. -/
theorem C79_psbt_newline (junk : Nat → Bytes) {p : PSBT} (hp : p.Clean) (d : PsbtDoc) (t : Bytes) (h0 : t ≠ []) (h3 : t.length ≤ 3) (hz : ∀ c ∈ t, c ≠ 0) :
    ∃ q, p.parseBase64 junk (base64Text true false d.bytes ++ t) = .ok (q, 0) ∧ q.status = .failed := by
  have h1 := List.length_pos_iff.mpr h0
  have hl : (base64Text true false d.bytes).length % 4 = 0 := by
    have := C08_toBase64Length d.bytes ⟨false, false⟩
    rw [show (!(⟨false, false⟩ : B64Flags).noPadding) = true from rfl, show (⟨false, false⟩ : B64Flags).urlSafe = false from rfl] at this
    rw [this]
    unfold toBase64Length
    dsimp only
    rw [if_neg (show ¬ (false = true) by decide)]
    split <;> omega
  refine C79_psbt_bad_text junk hp _ (C79_refused _ ?_ ?_ (Or.inr ⟨?_, ?_⟩))
  · intro e; exact h0 (List.append_eq_nil_iff.mp e).2
  · intro c hc
    rcases List.mem_append.mp hc with h | h
    · exact base64Text_no_nul _ _ _ c h
    · exact hz c h
  · rw [List.length_append]; omega
  · refine third_char _ ?_ t
    rw [d.bytes_eq]
    simp [psbtMagic]

/-- C79: for text in other encodings, and for a bad character. -/
example : base64ToHex (str "cHNidP8=\n") ⟨false, false⟩ = .ok [] ∧ base64ToHex (str "cHNid-8=") ⟨false, false⟩ = .ok [] ∧
    base64ToHex (str "cHNidP8=") ⟨false, false⟩ = .ok (str "70736274ff") ∧ hexToBase64 (str "70736274FF") ⟨false, false⟩ = .ok (str "cHNidP8=") := by decide +kernel

/-- C79: an object that writes and reads its text: the example transaction. -/
example : exTx.Holds exTxSpec ∧ SmallTx exTxSpec := ⟨exTx_holds, exTx_small⟩

/-- C79: documents, objects that hold them, and clean objects exist. -/
example (junk : Nat → Bytes) : exDoc.Ok ∧ ({} : PSBT).Clean ∧ (PSBT.fromStream junk {} (.of (exDoc.bytes ++ []))).1.Holds exDoc :=
  ⟨exDoc_ok, PSBT.clean_fresh, (C57_parse_partial junk PSBT.clean_fresh exDoc exDoc_ok []).2.1⟩

end UB
