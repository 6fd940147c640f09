import Verif.Lemmas.Items
import Verif.Spec.Values
/-
The canonical text of a value is parsed back to the value.
-/
namespace Ntcip
open Spec

theorem dec_isComma (n : Nat) : ∀ c ∈ dec n, isComma c = false := by
  intro c hc
  have := dec_digits n c hc
  simp only [isComma, beq_eq_false_iff_ne]
  exact isDigit_ne this (by decide)

theorem dec_isO (n : Nat) : ∀ c ∈ dec n, isO c = false := by
  intro c hc
  have := dec_digits n c hc
  simp only [isO, Bool.or_eq_false_iff, beq_eq_false_iff_ne]
  exact ⟨isDigit_ne this (by decide), isDigit_ne this (by decide)⟩

theorem dec_isT (n : Nat) : ∀ c ∈ dec n, isT c = false := by
  intro c hc
  have := dec_digits n c hc
  simp only [isT, Bool.or_eq_false_iff, beq_eq_false_iff_ne]
  exact ⟨isDigit_ne this (by decide), isDigit_ne this (by decide)⟩

theorem hex04_isComma (n : Nat) : ∀ c ∈ hex04 n, isComma c = false := by
  intro c hc
  have := hex04_hexDigits n c hc
  simp only [isComma, beq_eq_false_iff_ne]
  rintro rfl; revert this; decide

theorem dec_plain (n : Nat) : Plain (dec n) := by
  intro c hc
  have := dec_digits n c hc
  exact ⟨isDigit_ne this (by decide), isDigit_ne this (by decide)⟩

theorem hex04_plain (n : Nat) : Plain (hex04 n) := by
  intro c hc
  have := hex04_hexDigits n c hc
  constructor <;> rintro rfl <;> revert this <;> decide

theorem splitN_dec (n a : Nat) (b : Str) :
    splitN (n + 2) isComma (dec a ++ ',' :: b) = dec a :: splitN (n + 1) isComma b :=
  splitN_cut n isComma _ ',' b (dec_isComma a) rfl
theorem splitN_dec_none (n a : Nat) : splitN n isComma (dec a) = [dec a] :=
  splitN_none n isComma _ (dec_isComma a)
theorem splitN_hex_none (n a : Nat) : splitN n isComma (hex04 a) = [hex04 a] :=
  splitN_none n isComma _ (hex04_isComma a)
theorem splitAll_dec (a : Nat) (b : Str) :
    splitAll isComma (dec a ++ ',' :: b) = dec a :: splitAll isComma b :=
  splitAll_cut isComma _ ',' b (dec_isComma a) rfl
theorem splitAll_dec_none (a : Nat) : splitAll isComma (dec a) = [dec a] :=
  splitAll_none isComma _ (dec_isComma a)
theorem splitO_dec (n a : Nat) (b : Str) :
    splitN (n + 2) isO (dec a ++ 'o' :: b) = dec a :: splitN (n + 1) isO b :=
  splitN_cut n isO _ 'o' b (dec_isO a) rfl
theorem splitO_nil (n : Nat) (b : Str) :
    splitN (n + 2) isO ('o' :: b) = [] :: splitN (n + 1) isO b :=
  splitN_cut n isO [] 'o' b (by simp) rfl
theorem splitT_dec (n a : Nat) (b : Str) :
    splitN (n + 2) isT (dec a ++ 't' :: b) = dec a :: splitN (n + 1) isT b :=
  splitN_cut n isT _ 't' b (dec_isT a) rfl
theorem splitT_nil (n : Nat) (b : Str) :
    splitN (n + 2) isT ('t' :: b) = [] :: splitN (n + 1) isT b :=
  splitN_cut n isT [] 't' b (by simp) rfl

theorem comma2 (a : Nat) (b : Str) : splitN 2 isComma (dec a ++ ',' :: b) = [dec a, b] := by
  rw [splitN_dec 0, splitN_one]
theorem comma3 (a : Nat) (b : Str) :
    splitN 3 isComma (dec a ++ ',' :: b) = dec a :: splitN 2 isComma b := splitN_dec 1 a b
theorem comma4 (a : Nat) (b : Str) :
    splitN 4 isComma (dec a ++ ',' :: b) = dec a :: splitN 3 isComma b := splitN_dec 2 a b
theorem comma5 (a : Nat) (b : Str) :
    splitN 5 isComma (dec a ++ ',' :: b) = dec a :: splitN 4 isComma b := splitN_dec 3 a b
theorem comma6 (a : Nat) (b : Str) :
    splitN 6 isComma (dec a ++ ',' :: b) = dec a :: splitN 5 isComma b := splitN_dec 4 a b
theorem comma7 (a : Nat) (b : Str) :
    splitN 7 isComma (dec a ++ ',' :: b) = dec a :: splitN 6 isComma b := splitN_dec 5 a b
theorem splitO_dec2 (a : Nat) (b : Str) : splitN 2 isO (dec a ++ 'o' :: b) = [dec a, b] := by
  rw [splitO_dec 0, splitN_one]
theorem splitO_nil2 (b : Str) : splitN 2 isO ('o' :: b) = [[], b] := by
  rw [splitO_nil 0, splitN_one]
theorem splitT_dec2 (a : Nat) (b : Str) : splitN 2 isT (dec a ++ 't' :: b) = [dec a, b] := by
  rw [splitT_dec 0, splitN_one]
theorem splitT_nil2 (b : Str) : splitN 2 isT ('t' :: b) = [[], b] := by
  rw [splitT_nil 0, splitN_one]

theorem parseColor_display (c : Color) : parseColor (splitAll isComma c.display) = some c := by
  cases c with
  | legacy v => simp [Color.display, splitAll_dec_none, parseColor, parseU8_dec]
  | rgb r g b =>
    simp [Color.display, splitAll_dec, splitAll_dec_none, parseColor, parseU8_dec]

theorem color_display_ne_nil (c : Color) : c.display ≠ [] := by
  cases c <;> simp [Color.display, dec_ne_nil]

theorem color_display_plain (c : Color) : Plain c.display := by
  cases c with
  | legacy v => exact dec_plain _
  | rgb r g b =>
    simp [Color.display, plain_append, plain_cons, dec_plain, show (',' : Char) ≠ '[' by decide]

theorem rectangle_display_plain (r : Rectangle) : Plain r.display := by
  simp [Rectangle.display, plain_append, plain_cons, dec_plain]

theorem parseColor_display3 (c : Color) : parseColor (splitN 3 isComma c.display) = some c := by
  cases c with
  | legacy v => simp [Color.display, splitN_dec_none, parseColor, parseU8_dec]
  | rgb r g b =>
    simp only [Color.display, List.append_assoc, List.cons_append, List.nil_append]
    rw [comma3, comma2]
    simp [parseColor, parseU8_dec]

theorem u16_pos_iff (v : UInt16) : v > 0 ↔ 1 ≤ v.toNat := by
  rw [gt_iff_lt, UInt16.lt_iff_toNat_lt]; rfl

/-- the values that can be written as a tag and read back -/
def Faithful (v : Value) : Prop := InRange v ∧ ∀ c, v = .hexadecimalCharacter c → c.toNat < 10

theorem parseHex16_digit (c : UInt16) (h : c.toNat < 10) : parseHex16 (dec c.toNat) = some c := by
  have key : ∀ n : Fin 10, parseHex16 (dec n.val) = some (UInt16.ofNat n.val) := by decide +kernel
  have := key ⟨c.toNat, h⟩
  rw [this]; simp

theorem blen_dec_digit (n : Nat) (h : n ≤ 9) : blen (dec n) = 1 := by
  have key : ∀ n : Fin 10, blen (dec n.val) = 1 := by decide +kernel
  exact key ⟨n, by omega⟩

theorem parseOptional99_dec (v : UInt8) (rest : List Str) (h : v.toNat ≤ 99) :
    parseOptional99 (dec v.toNat :: rest) = (some (some v), rest) := by
  have : v ≤ 99 := UInt8.le_iff_toNat_le.2 h
  simp [parseOptional99, dec_ne_nil, parseU8_dec, this]

theorem parseOptional_dec (v : UInt8) (rest : List Str) :
    parseOptional (dec v.toNat :: rest) = (some (some v), rest) := by
  simp [parseOptional, dec_ne_nil, parseU8_dec]

theorem parseNonzero_dec (v : UInt8) (rest : List Str) (h : 1 ≤ v.toNat) :
    parseNonzero (dec v.toNat :: rest) = (some v, rest) := by
  have : v ≠ 0 := by rintro rfl; revert h; decide
  simp [parseNonzero, parseU8_dec, this]

theorem parseVersionId_hex (v : UInt16) (rest : List Str) :
    parseVersionId (hex04 v.toNat :: rest) = some (some v) := by
  simp [parseVersionId, blen_hex04, parseHex16_hex04]

/-- a number, or nothing -/
def optDec : Option UInt8 → Str
  | some a => dec a.toNat
  | none => []

theorem parseFlashOn_display (a b : Option UInt8) (ha : AtMost 99 a) (hb : AtMost 99 b) :
    parseFlashOn (optDec a ++ 'o' ::
      optDec b) = some (.flash .onOff a b) := by
  unfold parseFlashOn optDec
  cases a with
  | none =>
    cases b with
    | none => simp [splitO_nil2, parseOptional99]
    | some b =>
      simp only [List.nil_append, splitO_nil2]
      simp [parseOptional99 , dec_ne_nil, parseU8_dec, UInt8.le_iff_toNat_le, hb b rfl]
  | some a =>
    cases b with
    | none =>
      simp only [splitO_dec2, parseOptional99_dec a _ (ha a rfl)]
      simp [parseOptional99]
    | some b =>
      simp only [splitO_dec2, parseOptional99_dec a _ (ha a rfl),
        parseOptional99_dec b _ (hb b rfl)]

theorem parseFlashOff_display (a b : Option UInt8) (ha : AtMost 99 a) (hb : AtMost 99 b) :
    parseFlashOff (optDec a ++ 't' ::
      optDec b) = some (.flash .offOn a b) := by
  unfold parseFlashOff optDec
  cases a with
  | none =>
    cases b with
    | none => simp [splitT_nil2, parseOptional99]
    | some b =>
      simp only [List.nil_append, splitT_nil2]
      simp [parseOptional99 , dec_ne_nil, parseU8_dec, UInt8.le_iff_toNat_le, hb b rfl]
  | some a =>
    cases b with
    | none =>
      simp only [splitT_dec2, parseOptional99_dec a _ (ha a rfl)]
      simp [parseOptional99]
    | some b =>
      simp only [splitT_dec2, parseOptional99_dec a _ (ha a rfl),
        parseOptional99_dec b _ (hb b rfl)]

theorem parseMovingTextMode_display (m : MovingTextMode) (d : MovingTextDirection) (w : UInt16)
    (s r : UInt8) (t : Str) :
    parseMovingTextMode (d.display ++ dec w.toNat ++ c!"," ++ dec s.toNat ++ c!"," ++
      dec r.toNat ++ c!"," ++ t) m = .ok (some (.movingText m d w s r t)) := by
  have hsl : ∀ (c : Char) (x : Str), c.toNat < 128 → sliceFrom 1 (c :: x) = .ok x :=
    fun c x hc => ((slice_one c x).1 hc).1
  cases d <;>
  · simp only [MovingTextDirection.display, List.append_assoc, List.cons_append, List.nil_append]
    unfold parseMovingTextMode
    rw [if_pos (by simp)]
    simp only [hsl _ _ (show 'l'.toNat < 128 by decide), hsl _ _ (show 'r'.toNat < 128 by decide),
      Res.ok_bind, comma4, comma3, comma2, parseIntU16, parseIntU8,
      parseU16_dec, parseU8_dec]
    simp [parseMovingTextDir]

theorem dec_head_digit (n : Nat) : ∃ d s, dec n = d :: s ∧ IsDigit d := by
  cases h : dec n with
  | nil => exact absurd h (dec_ne_nil n)
  | cons d s => exact ⟨d, s, rfl, dec_digits n d (by rw [h]; simp)⟩

theorem dec_small (n : Nat) (h : n ≤ 9) : ∃ d, dec n = [d] ∧ d.toNat < 128 := by
  obtain ⟨d, s, hd, hdig⟩ := dec_head_digit n
  have hl := blen_dec_digit n h
  rw [hd] at hl
  simp only [blen] at hl
  have h1 := utf8Size_pos d
  have : s = [] := blen_eq_zero.1 (by omega)
  subst this
  exact ⟨d, hd, by unfold IsDigit at hdig; omega⟩

theorem parseMovingTextLinear_display (x : UInt8) (hx : x.toNat ≤ 9) (d : MovingTextDirection)
    (rest : Str) (v : Value)
    (h : parseMovingTextMode (d.display ++ rest) (.linear x) = .ok (some v)) :
    parseMovingTextLinear (dec x.toNat ++ (d.display ++ rest)) = .ok (some v) := by
  obtain ⟨c, hc, hc8⟩ := dec_small x.toNat hx
  have hp := parseU8_dec x
  rw [hc] at hp ⊢
  simp only [List.cons_append, List.nil_append]
  unfold parseMovingTextLinear
  simp [((slice_one c (d.display ++ rest)).1 hc8).1, ((slice_one c (d.display ++ rest)).1 hc8).2, hp, h]

/-- **the canonical text of a tag value**: it is a tag of some kind whose parser gives the value -/
theorem display_kind (v : Value) (hv : Faithful v) (ht : ∀ t, v ≠ .text t) :
    ∃ (k : Kind) (r : Str), v.display = '[' :: (k.name ++ r ++ [']']) ∧ k.Ok r ∧ Plain r ∧
      k.body r = .ok (some v) := by
  obtain ⟨hv, hhc⟩ := hv
  cases v with
  | text t => exact absurd rfl (ht t)
  | colorBackground c =>
    cases c with
    | none => exact ⟨.cb, [], rfl, trivial, plain_nil, rfl⟩
    | some c =>
      cases c with
      | rgb r g b => exact absurd rfl (hv r g b)
      | legacy n => exact ⟨.cb, dec n.toNat, rfl, trivial, dec_plain _, by
          simp [Kind.body, dec_ne_nil, parseU8_dec]⟩
  | colorForeground c =>
    cases c with
    | none => exact ⟨.cf, [], rfl, trivial, plain_nil, rfl⟩
    | some c => exact ⟨.cf, c.display, rfl, trivial, color_display_plain c, by
        simp [Kind.body, color_display_ne_nil, parseColor_display]⟩
  | pageBackground c =>
    cases c with
    | none => exact ⟨.pb, [], rfl, trivial, plain_nil, rfl⟩
    | some c => exact ⟨.pb, c.display, rfl, trivial, color_display_plain c, by
        simp [Kind.body, color_display_ne_nil, parseColor_display]⟩
  | colorRectangle r c =>
    refine ⟨.cr, r.display ++ ',' :: c.display, ?_, trivial, ?_, ?_⟩
    · simp [Value.display, Kind.name]
    · simp [plain_append, plain_cons, rectangle_display_plain, color_display_plain]
    · simp only [Kind.body, Rectangle.display, List.append_assoc, List.cons_append, List.nil_append]
      rw [comma7, comma6, comma5, comma4]
      obtain ⟨h1, h2⟩ := hv
      rw [← u16_pos_iff] at h1 h2
      simp only [parseRectangle, parseU16_dec]
      rw [if_pos ⟨h1, h2⟩]
      simp only [parseColor_display3]
  | textRectangle r =>
    refine ⟨.tr, r.display, ?_, trivial, rectangle_display_plain r, ?_⟩
    · simp [Value.display, Kind.name]
    · simp only [Kind.body, Rectangle.display, List.append_assoc, List.cons_append, List.nil_append]
      rw [comma4, comma3, comma2]
      obtain ⟨h1, h2⟩ := hv
      rw [← u16_pos_iff] at h1 h2
      simp only [parseRectangle, parseU16_dec]
      rw [if_pos ⟨h1, h2⟩]
      rfl
  | field i w =>
    have hi : i < 14 := UInt8.lt_iff_toNat_lt.2 hv
    have hok : ∀ x : Str, Kind.Ok (dec i.toNat ++ x) .f := by
      intro x c hc
      obtain ⟨d, s, hd, hdig⟩ := dec_head_digit i.toNat
      rw [hd] at hc
      simp at hc; subst hc
      have : asciiLower d = d := by
        unfold asciiLower
        rw [if_neg]
        rintro ⟨h1, -⟩
        have h1 : 65 ≤ d.toNat := h1
        unfold IsDigit at hdig; omega
      rw [this]
      exact ⟨isDigit_ne hdig (by decide), isDigit_ne hdig (by decide), isDigit_ne hdig (by decide)⟩
    cases w with
    | none =>
      refine ⟨.f, dec i.toNat, rfl, by simpa using hok [], dec_plain _, ?_⟩
      simp [Kind.body, splitN_dec_none, parseIntU8, parseU8_dec, parseOptional, hi]
    | some w =>
      refine ⟨.f, dec i.toNat ++ ',' :: dec w.toNat, by simp [Value.display, Kind.name], hok _, ?_, ?_⟩
      · simp [plain_append, plain_cons, dec_plain]
      · simp only [Kind.body, comma2, parseIntU8, parseU8_dec, parseOptional_dec]
        rw [if_pos hi]
  | flash o a b =>
    obtain ⟨ha, hb⟩ := hv
    cases o with
    | onOff =>
      refine ⟨.fl, 't' :: (optDec a ++ 'o' ::
        optDec b), ?_, trivial, ?_, ?_⟩
      · cases a <;> cases b <;> simp [optDec, Value.display, Kind.name]
      · cases a <;> cases b <;> simp [optDec, plain_append, plain_cons, dec_plain, plain_nil]
      · simp only [Kind.body]
        rw [if_pos (by decide), if_pos (by simp), parseFlashOn_display a b ha hb]
    | offOn =>
      refine ⟨.fl, 'o' :: (optDec a ++ 't' ::
        optDec b), ?_, trivial, ?_, ?_⟩
      · cases a <;> cases b <;> simp [optDec, Value.display, Kind.name]
      · cases a <;> cases b <;> simp [optDec, plain_append, plain_cons, dec_plain, plain_nil]
      · simp only [Kind.body]
        rw [if_pos (by decide), if_neg (by simp), if_pos (by simp), parseFlashOff_display a b ha hb]
  | flashEnd => exact ⟨.flEnd, [], rfl, trivial, plain_nil, rfl⟩
  | spacingCharacterEnd => exact ⟨.scEnd, [], rfl, trivial, plain_nil, rfl⟩
  | newPage => exact ⟨.np, [], rfl, trivial, plain_nil, rfl⟩
  | font f =>
    match f with
    | none => exact ⟨.fo, [], rfl, trivial, plain_nil, rfl⟩
    | some (n, none) =>
      refine ⟨.fo, dec n.toNat, rfl, trivial, dec_plain _, ?_⟩
      simp [Kind.body, dec_ne_nil, splitN_dec_none, parseNonzero_dec n _ (hv n _ rfl), parseVersionId]
    | some (n, some c) =>
      refine ⟨.fo, dec n.toNat ++ ',' :: hex04 c.toNat, by simp [Value.display, Kind.name], trivial, ?_, ?_⟩
      · simp [plain_append, plain_cons, dec_plain, hex04_plain]
      · simp [Kind.body, comma2, parseNonzero_dec n _ (hv n _ rfl), parseVersionId_hex]
  | graphic n p =>
    obtain ⟨h1, h2⟩ := hv
    match p with
    | none =>
      refine ⟨.g, dec n.toNat, rfl, trivial, dec_plain _, ?_⟩
      simp [Kind.body, splitN_dec_none, parseNonzero_dec n _ h1, parseVersionId, parsePoint]
    | some (x, y, none) =>
      obtain ⟨h3, h4⟩ := h2 x y _ rfl
      rw [← u16_pos_iff] at h3 h4
      refine ⟨.g, dec n.toNat ++ ',' :: (dec x.toNat ++ ',' :: dec y.toNat), by simp [Value.display, Kind.name], trivial, ?_, ?_⟩
      · simp [plain_append, plain_cons, dec_plain]
      · simp only [Kind.body, comma4, comma3, splitN_dec_none, parseNonzero_dec n _ h1,
          parsePoint, parseXY, parseU16_dec]
        rw [if_pos ⟨h3, h4⟩]
        rfl
    | some (x, y, some c) =>
      obtain ⟨h3, h4⟩ := h2 x y _ rfl
      rw [← u16_pos_iff] at h3 h4
      refine ⟨.g, dec n.toNat ++ ',' :: (dec x.toNat ++ ',' :: (dec y.toNat ++ ',' :: hex04 c.toNat)),
        by simp [Value.display, Kind.name], trivial, ?_, ?_⟩
      · simp [plain_append, plain_cons, dec_plain, hex04_plain]
      · simp only [Kind.body, comma4, comma3, comma2, parseNonzero_dec n _ h1,
          parsePoint, parseXY, parseU16_dec]
        rw [if_pos ⟨h3, h4⟩]
        simp only [parseVersionId_hex]
  | hexadecimalCharacter c =>
    refine ⟨.hc, dec c.toNat, rfl, trivial, dec_plain _, ?_⟩
    simp [Kind.body, parseHex16_digit c (hhc c rfl)]
  | justificationLine j =>
    cases j with
    | none => exact ⟨.jl, [], rfl, trivial, plain_nil, rfl⟩
    | some j =>
      refine ⟨.jl, dec j.toNat, rfl, trivial, dec_plain _, ?_⟩
      cases j <;> decide
  | justificationPage j =>
    cases j with
    | none => exact ⟨.jp, [], rfl, trivial, plain_nil, rfl⟩
    | some j =>
      refine ⟨.jp, dec j.toNat, rfl, trivial, dec_plain _, ?_⟩
      cases j <;> decide
  | manufacturerSpecific i s =>
    cases s with
    | none =>
      refine ⟨.ms, dec i.toNat, rfl, trivial, dec_plain _, ?_⟩
      simp [Kind.body, splitN_dec_none, parseIntU32, parseU32_dec]
    | some s =>
      refine ⟨.ms, dec i.toNat ++ ',' :: s, by simp [Value.display, Kind.name], trivial, ?_, ?_⟩
      · have := hv s rfl
        simp [plain_append, plain_cons, dec_plain, this]
      · simp [Kind.body, comma2, parseIntU32, parseU32_dec]
  | manufacturerSpecificEnd i s =>
    cases s with
    | none =>
      refine ⟨.msEnd, dec i.toNat, rfl, trivial, dec_plain _, ?_⟩
      simp [Kind.body, splitN_dec_none, parseIntU32, parseU32_dec]
    | some s =>
      refine ⟨.msEnd, dec i.toNat ++ ',' :: s, by simp [Value.display, Kind.name], trivial, ?_, ?_⟩
      · have := hv s rfl
        simp [plain_append, plain_cons, dec_plain, this]
      · simp [Kind.body, comma2, parseIntU32, parseU32_dec]
  | movingText m d w s r t =>
    obtain ⟨hm, htp⟩ := hv
    refine ⟨.mv, m.display ++ d.display ++ dec w.toNat ++ c!"," ++ dec s.toNat ++ c!"," ++
      dec r.toNat ++ c!"," ++ t, by simp [Value.display, Kind.name], trivial, ?_, ?_⟩
    · cases m <;> cases d <;>
        simp [plain_append, plain_cons, dec_plain, htp, MovingTextMode.display,
          MovingTextDirection.display, plain_nil]
    · have key := parseMovingTextMode_display m d w s r t
      cases m with
      | circular =>
        simp only [MovingTextMode.display, Kind.body, List.append_assoc, List.cons_append, List.nil_append] at key ⊢
        rw [if_pos (by decide), if_pos (by simp)]
        exact key
      | linear x =>
        simp only [MovingTextMode.display, Kind.body, List.append_assoc, List.cons_append, List.nil_append] at key ⊢
        rw [if_pos (by decide), if_neg (by simp), if_pos (by simp)]
        exact parseMovingTextLinear_display x (hm x rfl) d _ _ key
  | newLine ls =>
    cases ls with
    | none => exact ⟨.nl, [], rfl, trivial, plain_nil, rfl⟩
    | some x =>
      refine ⟨.nl, dec x.toNat, rfl, trivial, dec_plain _, ?_⟩
      simp [Kind.body, dec_ne_nil, parseU8_dec, blen_dec_digit _ (hv x rfl)]
  | pageTime a b =>
    refine ⟨.pt, optDec a ++ 'o' ::
        optDec b, ?_, trivial, ?_, ?_⟩
    · cases a <;> cases b <;> simp [optDec, Value.display, Kind.name]
    · cases a <;> cases b <;> simp [optDec, plain_append, plain_cons, dec_plain, plain_nil]
    · simp only [Kind.body, optDec]
      cases a with
      | none =>
        cases b with
        | none => simp [splitO_nil2, parseOptional]
        | some b =>
          simp only [List.nil_append, splitO_nil2]
          simp [parseOptional , dec_ne_nil, parseU8_dec]
      | some a =>
        cases b with
        | none =>
          simp only [splitO_dec2, parseOptional_dec a]
          simp [parseOptional]
        | some b =>
          simp only [splitO_dec2, parseOptional_dec a, parseOptional_dec b]
  | spacingCharacter s =>
    refine ⟨.sc, dec s.toNat, rfl, trivial, dec_plain _, ?_⟩
    have hv' : s.toNat ≤ 99 := hv
    have : s < 100 := UInt8.lt_iff_toNat_lt.2 (by simp; omega)
    simp [Kind.body, parseU8_dec, this]

theorem kind_name_lower (k : Kind) : k.name.map asciiLower = k.name := by
  cases k <;> decide

theorem doubleChar_plain (ch : Char) (t : Str) (h : ∀ c ∈ t, c ≠ ch) : doubleChar ch t = t := by
  induction t with
  | nil => rfl
  | cons c t ih =>
    have h1 := h c (by simp)
    have := ih fun c hc => h c (by simp [hc])
    simp only [doubleChar, List.flatMap_cons, if_neg h1] at this ⊢
    rw [this]; rfl

theorem text_display (t : Str) (h : InRange (.text t)) :
    (t = c!"[" ∧ (Value.text t).display = c!"[[") ∨ (t = c!"]" ∧ (Value.text t).display = c!"]]") ∨
    (t ≠ [] ∧ Plain t ∧ (∀ c ∈ t, 1 ≤ c.toNat ∧ c.toNat ≤ 0xFF) ∧ (Value.text t).display = t) := by
  rcases h with rfl | rfl | ⟨h1, h2, h3⟩
  · exact .inl ⟨rfl, rfl⟩
  · exact .inr (.inl ⟨rfl, rfl⟩)
  · refine .inr (.inr ⟨h1, h2, h3, ?_⟩)
    simp only [Value.display]
    rw [doubleChar_plain '[' t fun c hc => (h2 c hc).1, doubleChar_plain ']' t fun c hc => (h2 c hc).2]

theorem validChar_iff (c : Char) : validChar c = true ↔ 1 ≤ c.toNat ∧ c.toNat ≤ 0xFF := by
  simp [validChar]

/-- the canonical text of a faithful value is an item with this value -/
theorem display_parse (v : Value) (hv : Faithful v) : Item v.display ∧ tryFrom v.display = .ok (.ok v) := by
  by_cases ht : ∃ t, v = .text t
  · obtain ⟨t, rfl⟩ := ht
    rcases text_display t hv.1 with ⟨rfl, h⟩ | ⟨rfl, h⟩ | ⟨h1, h2, h3, h⟩
    · rw [h]; exact ⟨.escOpen, tryFrom_esc.1⟩
    · rw [h]; exact ⟨.escClose, tryFrom_esc.2⟩
    · rw [h]
      refine ⟨.span t h1 h2, ?_⟩
      rw [tryFrom_span t h1 h2, if_neg]
      simp only [List.any_eq_true, not_exists, not_and, Bool.not_eq_true', Bool.not_eq_false]
      intro c hc
      exact (validChar_iff c).2 (h3 c hc)
  · obtain ⟨k, r, h1, h2, h3, h4⟩ := display_kind v hv fun t h => ht ⟨t, h⟩
    rw [h1]
    constructor
    · apply Item.tag
      rw [plain_append]
      exact ⟨by cases k <;> simp [Kind.name, plain_cons, plain_nil], h3⟩
    · rw [tryFrom_kind k k.name r (kind_name_lower k) h2 h3, h4]; rfl

/-- decimal digits read as hexadecimal digits give a larger number, of as many digits -/
theorem digitsVal_hex_dec (f n : Nat) (h : n ≤ f) :
    ∃ m, digitsVal 16 0 (decAux f n) = some m ∧ n ≤ m ∧ (10 ≤ n → n < m) ∧
      ∀ k, n < 10 ^ k → m < 16 ^ k := by
  induction f generalizing n with
  | zero =>
    have : n = 0 := by omega
    subst this
    exact ⟨0, by decide, Nat.le_refl _, by omega, fun k _ => Nat.pow_pos (by omega)⟩
  | succ f ih =>
    simp only [decAux]
    split
    · rename_i hn
      refine ⟨n, ?_, Nat.le_refl _, by omega, ?_⟩
      · simp [digitsVal, digitVal_digitChar 16 n (by omega) (by omega)]
      · intro k hk
        exact Nat.lt_of_lt_of_le hk (Nat.pow_le_pow_left (by omega) k)
    · obtain ⟨m, h1, h2, h3, h4⟩ := ih (n / 10) (by omega)
      refine ⟨m * 16 + n % 10, ?_, by omega, by omega, ?_⟩
      · rw [digitsVal_append, h1]
        simp [digitsVal, digitVal_digitChar 16 (n % 10) (by omega) (by omega)]
      · intro k hk
        cases k with
        | zero => simp at hk; omega
        | succ k =>
          rw [Nat.pow_succ] at hk ⊢
          have := h4 k (by omega)
          omega

/-- decimal numbers below 10000 are readable as hexadecimal numbers -/
theorem parseHex16_dec (n : Nat) (h : n < 10000) : ∃ c, parseHex16 (dec n) = some c := by
  obtain ⟨m, h1, -, -, h2⟩ := digitsVal_hex_dec n n (Nat.le_refl _)
  have hm : m < 65536 := h2 4 h
  unfold parseHex16
  rw [parseUInt_digits _ _ _ (dec_ne_nil _) (dec_head _), show digitsVal 16 0 (dec n) = some m from h1]
  exact ⟨_, by simp [show m ≤ 65535 by omega]; rfl⟩

end Ntcip
