import Verif.Spec.Grammar
import Verif.Lemmas.Items
import Verif.Props.Case
/-
The parsers of tags accept exactly what the grammar says.
-/
namespace Ntcip
open Spec

theorem digitIs_iff {radix : Nat} (hr : radix ≤ 16) (c : Char) (d : Nat) :
    digitVal radix c = some d ↔ DigitIs radix c d := by
  have tab : ∀ n : Fin 16, ∃ e : Char, c!"0123456789abcdef"[n.val]? = some e ∧
      e.toNat = if n.val < 10 then 48 + n.val else 87 + n.val := by decide +kernel
  have low : c.toLower = asciiLower c := (asciiLower_eq_toLower c).symm
  have hl := asciiLower_toNat c
  unfold DigitIs
  rw [low]
  constructor
  · intro h
    have hd : d < radix ∧ (if 48 ≤ c.toNat ∧ c.toNat ≤ 57 then some (c.toNat - 48)
           else if 97 ≤ c.toNat ∧ c.toNat ≤ 102 then some (c.toNat - 87)
           else if 65 ≤ c.toNat ∧ c.toNat ≤ 70 then some (c.toNat - 55)
           else none) = some d := by
      unfold digitVal at h
      dsimp only at h
      split at h
      · rename_i v hv
        split at h
        · cases h; exact ⟨by assumption, hv⟩
        · cases h
      · cases h
    obtain ⟨h1, h2⟩ := hd
    refine ⟨h1, ?_⟩
    obtain ⟨e, he, hn⟩ := tab ⟨d, by omega⟩
    dsimp only at he hn
    rw [he, Option.some.injEq, char_eq_iff, hn, hl]
    (repeat' split at h2) <;> simp only [Option.some.injEq, reduceCtorEq] at h2 <;> (repeat' split) <;> omega
  · rintro ⟨h1, h2⟩
    obtain ⟨e, he, hn⟩ := tab ⟨d, by omega⟩
    dsimp only at he hn
    rw [he, Option.some.injEq, char_eq_iff, hn, hl] at h2
    have key : (if 48 ≤ c.toNat ∧ c.toNat ≤ 57 then some (c.toNat - 48)
           else if 97 ≤ c.toNat ∧ c.toNat ≤ 102 then some (c.toNat - 87)
           else if 65 ≤ c.toNat ∧ c.toNat ≤ 70 then some (c.toNat - 55)
           else none) = some d := by
      (repeat' split at h2) <;> (repeat' split) <;> simp only [Option.some.injEq, reduceCtorEq] <;> omega
    simp only [digitVal, key, h1, if_true]

theorem digitsAre_append {radix : Nat} (hr : radix ≤ 16) {s m} (h : DigitsAre radix s m) (t n)
    (ht : digitsVal radix m t = some n) : DigitsAre radix (s ++ t) n := by
  induction t generalizing s m with
  | nil =>
    simp only [digitsVal, Option.some.injEq] at ht
    subst ht
    simpa using h
  | cons c t ih =>
    simp only [digitsVal] at ht
    split at ht
    · rename_i d hd
      have := ih (.more h ((digitIs_iff hr c d).1 hd)) ht
      simpa using this
    · cases ht

theorem digitsAre_iff {radix : Nat} (hr : radix ≤ 16) (s : Str) (n : Nat) :
    DigitsAre radix s n ↔ s ≠ [] ∧ digitsVal radix 0 s = some n := by
  constructor
  · intro h
    induction h with
    | one h => rw [← digitIs_iff hr] at h; simp [digitsVal, h]
    | more _ h ih =>
      rw [← digitIs_iff hr] at h
      rw [digitsVal_append, ih.2]
      simp [digitsVal, h]
  · rintro ⟨h1, h2⟩
    cases s with
    | nil => exact absurd rfl h1
    | cons c s =>
      simp only [digitsVal] at h2
      split at h2
      · rename_i d hd
        rw [Nat.zero_mul, Nat.zero_add] at h2
        exact digitsAre_append hr (.one ((digitIs_iff hr c d).1 hd)) s n h2
      · cases h2

theorem numberIs_iff {radix : Nat} (hr : radix ≤ 16) (max : Nat) (s : Str) (n : Nat) :
    parseUInt radix max s = some n ↔ NumberIs radix s n ∧ n ≤ max := by
  have key : ∀ o : Option Nat, (o.bind fun v => if v ≤ max then some v else none) = some n ↔
      o = some n ∧ n ≤ max := by
    rintro (_ | v)
    · simp
    · simp only [Option.bind_some, Option.some.injEq]
      split
      · simp only [Option.some.injEq]
        constructor
        · rintro rfl; exact ⟨rfl, by assumption⟩
        · exact And.left
      · constructor
        · simp
        · rintro ⟨rfl, h⟩; contradiction
  have plus : digitVal radix '+' = none := by simp [digitVal]
  by_cases hp : s.head? = some '+'
  · obtain ⟨s, rfl⟩ : ∃ s', s = '+' :: s' := by
      cases s with
      | nil => cases hp
      | cons c s => simp only [List.head?_cons, Option.some.injEq] at hp; exact ⟨s, by rw [hp]⟩
    cases s with
    | nil =>
      constructor
      · intro h; simp [parseUInt] at h
      · rintro ⟨h, _⟩
        cases h with
        | digits h => rw [digitsAre_iff hr] at h; simp [digitsVal, plus] at h
        | plus h => rw [digitsAre_iff hr] at h; simp at h
    | cons c s =>
      have e : parseUInt radix max ('+' :: c :: s) =
          (digitsVal radix 0 (c :: s)).bind fun v => if v ≤ max then some v else none := by
        simp only [parseUInt]
        cases digitsVal radix 0 (c :: s) <;> simp
      rw [e, key]
      constructor
      · rintro ⟨h, hm⟩; exact ⟨.plus ((digitsAre_iff hr _ _).2 ⟨by simp, h⟩), hm⟩
      · rintro ⟨h, hm⟩
        cases h with
        | digits h => rw [digitsAre_iff hr] at h; simp [digitsVal, plus] at h
        | plus h => exact ⟨((digitsAre_iff hr _ _).1 h).2, hm⟩
  · by_cases hne : s = []
    · subst hne
      constructor
      · intro h; simp [parseUInt] at h
      · rintro ⟨h, _⟩
        cases h with
        | digits h => rw [digitsAre_iff hr] at h; simp at h
    · rw [parseUInt_digits _ _ _ hne hp, key]
      constructor
      · rintro ⟨h, hm⟩; exact ⟨.digits ((digitsAre_iff hr _ _).2 ⟨hne, h⟩), hm⟩
      · rintro ⟨h, hm⟩
        cases h with
        | digits h => exact ⟨((digitsAre_iff hr _ _).1 h).2, hm⟩
        | plus h => exact absurd rfl hp

theorem num8_iff (s : Str) (n : UInt8) : parseU8 s = some n ↔ Num8 s n := by
  unfold parseU8 Num8
  rw [Option.map_eq_some_iff]
  constructor
  · rintro ⟨k, hk, rfl⟩
    obtain ⟨h1, h2⟩ := (numberIs_iff (by decide) _ _ _).1 hk
    rwa [UInt8.toNat_ofNat_of_lt' (by simpa using Nat.lt_succ_of_le h2)]
  · intro h
    exact ⟨n.toNat, (numberIs_iff (by decide) _ _ _).2 ⟨h, Nat.le_of_lt_succ n.toNat_lt⟩, by simp⟩

theorem num16_iff (s : Str) (n : UInt16) : parseU16 s = some n ↔ Num16 s n := by
  unfold parseU16 Num16
  rw [Option.map_eq_some_iff]
  constructor
  · rintro ⟨k, hk, rfl⟩
    obtain ⟨h1, h2⟩ := (numberIs_iff (by decide) _ _ _).1 hk
    rwa [UInt16.toNat_ofNat_of_lt' (by simpa using Nat.lt_succ_of_le h2)]
  · intro h
    exact ⟨n.toNat, (numberIs_iff (by decide) _ _ _).2 ⟨h, Nat.le_of_lt_succ n.toNat_lt⟩, by simp⟩

theorem num32_iff (s : Str) (n : UInt32) : parseU32 s = some n ↔ Num32 s n := by
  unfold parseU32 Num32
  rw [Option.map_eq_some_iff]
  constructor
  · rintro ⟨k, hk, rfl⟩
    obtain ⟨h1, h2⟩ := (numberIs_iff (by decide) _ _ _).1 hk
    rwa [UInt32.toNat_ofNat_of_lt' (by simpa using Nat.lt_succ_of_le h2)]
  · intro h
    exact ⟨n.toNat, (numberIs_iff (by decide) _ _ _).2 ⟨h, Nat.le_of_lt_succ n.toNat_lt⟩, by simp⟩

theorem numHex_iff (s : Str) (n : UInt16) : parseHex16 s = some n ↔ NumHex s n := by
  unfold parseHex16 NumHex
  rw [Option.map_eq_some_iff]
  constructor
  · rintro ⟨k, hk, rfl⟩
    obtain ⟨h1, h2⟩ := (numberIs_iff (by decide) _ _ _).1 hk
    rwa [UInt16.toNat_ofNat_of_lt' (by simpa using Nat.lt_succ_of_le h2)]
  · intro h
    exact ⟨n.toNat, (numberIs_iff (by decide) _ _ _).2 ⟨h, Nat.le_of_lt_succ n.toNat_lt⟩, by simp⟩

/-- the characters of a number -/
theorem digitIs_char {radix c d} (h : DigitIs radix c d) : c.toLower ∈ c!"0123456789abcdef" :=
  List.mem_of_getElem? h.2

theorem numberIs_chars {radix s n} (h : NumberIs radix s n) :
    s ≠ [] ∧ ∀ c ∈ s, c = '+' ∨ ∃ d, DigitIs radix c d := by
  have digits : ∀ {s n}, DigitsAre radix s n → s ≠ [] ∧ ∀ c ∈ s, ∃ d, DigitIs radix c d := by
    intro s n h
    induction h with
    | one h => exact ⟨by simp, fun c hc => by simp at hc; subst hc; exact ⟨_, h⟩⟩
    | more _ h ih =>
      refine ⟨by simp, fun c hc => ?_⟩
      rcases List.mem_append.1 hc with hc | hc
      · exact ih.2 c hc
      · simp at hc; subst hc; exact ⟨_, h⟩
  cases h with
  | digits h => exact ⟨(digits h).1, fun c hc => .inr ((digits h).2 c hc)⟩
  | plus h =>
    refine ⟨by simp, fun c hc => ?_⟩
    rcases List.mem_cons.1 hc with rfl | hc
    · exact .inl rfl
    · exact .inr ((digits h).2 c hc)

theorem digit_range {radix c d} (h : DigitIs radix c d) (hr : radix ≤ 16) :
    48 ≤ c.toNat ∧ c.toNat ≤ 57 ∧ d = c.toNat - 48 ∨ radix ≠ 10 ∧ (65 ≤ c.toNat ∧ c.toNat ≤ 70 ∨ 97 ≤ c.toNat ∧ c.toNat ≤ 102) := by
  have h1 := h.1
  rw [← digitIs_iff hr] at h
  unfold digitVal at h
  dsimp only at h
  split at h
  · rename_i v hv
    split at h
    · cases h
      (repeat' split at hv) <;> simp only [Option.some.injEq, reduceCtorEq] at hv <;> omega
    · cases h
  · cases h

theorem number_ascii {radix s n} (hr : radix ≤ 16) (h : NumberIs radix s n) : ∀ c ∈ s, c.toNat < 128 := by
  intro c hc
  rcases (numberIs_chars h).2 c hc with rfl | ⟨d, hd⟩
  · decide
  · have := digit_range hd hr; omega

theorem number_comma {radix s n} (hr : radix ≤ 16) (h : NumberIs radix s n) : ∀ c ∈ s, isComma c = false := by
  intro c hc
  rcases (numberIs_chars h).2 c hc with rfl | ⟨d, hd⟩
  · rfl
  · have := digit_range hd hr
    simp only [isComma, beq_eq_false_iff_ne, ne_eq, char_eq_iff]
    have : ','.toNat = 44 := rfl
    omega

theorem number_O {s n} (h : NumberIs 10 s n) : ∀ c ∈ s, isO c = false := by
  intro c hc
  rcases (numberIs_chars h).2 c hc with rfl | ⟨d, hd⟩
  · rfl
  · have := digit_range hd (by decide)
    simp only [isO, Bool.or_eq_false_iff, beq_eq_false_iff_ne, ne_eq, char_eq_iff]
    have : 'o'.toNat = 111 := rfl
    have : 'O'.toNat = 79 := rfl
    omega

theorem number_T {s n} (h : NumberIs 10 s n) : ∀ c ∈ s, isT c = false := by
  intro c hc
  rcases (numberIs_chars h).2 c hc with rfl | ⟨d, hd⟩
  · rfl
  · have := digit_range hd (by decide)
    simp only [isT, Bool.or_eq_false_iff, beq_eq_false_iff_ne, ne_eq, char_eq_iff]
    have : 't'.toNat = 116 := rfl
    have : 'T'.toNat = 84 := rfl
    omega

theorem toLower_iff {c l u : Char} (hl : 97 ≤ l.toNat ∧ l.toNat ≤ 122) (hu : u.toNat + 32 = l.toNat) :
    c.toLower = l ↔ c = l ∨ c = u := by
  rw [← asciiLower_eq_toLower, char_eq_iff, char_eq_iff, char_eq_iff, asciiLower_toNat]
  split <;> omega

theorem isO_iff (c : Char) : isO c = true ↔ c.toLower = 'o' := by
  rw [toLower_iff (u := 'O') (by decide) (by decide)]; simp [isO]
theorem isT_iff (c : Char) : isT c = true ↔ c.toLower = 't' := by
  rw [toLower_iff (u := 'T') (by decide) (by decide)]; simp [isT]

/-- a string is cut at its first separator -/
theorem splitN_cases (p : Char → Bool) (s : Str) :
    (∀ c ∈ s, p c = false) ∨ ∃ a d b, s = a ++ d :: b ∧ (∀ c ∈ a, p c = false) ∧ p d = true := by
  induction s with
  | nil => exact .inl (by simp)
  | cons c s ih =>
    by_cases hc : p c = true
    · exact .inr ⟨[], c, s, rfl, by simp, hc⟩
    · have hc : p c = false := by simpa using hc
      rcases ih with h | ⟨a, d, b, rfl, h1, h2⟩
      · refine .inl fun x hx => ?_
        rcases List.mem_cons.1 hx with rfl | hx
        · exact hc
        · exact h x hx
      · refine .inr ⟨c :: a, d, b, rfl, fun x hx => ?_, h2⟩
        rcases List.mem_cons.1 hx with rfl | hx
        · exact hc
        · exact h1 x hx

/-- pieces with commas between them -/
def commas : List Str → Str
  | [] => []
  | [a] => a
  | a :: b :: r => a ++ ',' :: commas (b :: r)

theorem splitN_commas (n : Nat) (s : Str) : commas (splitN (n + 1) isComma s) = s ∧ splitN (n + 1) isComma s ≠ [] ∧
    (splitN (n + 1) isComma s).length ≤ n + 1 := by
  induction n generalizing s with
  | zero => rw [splitN_one]; simp [commas]
  | succ n ih =>
    rcases splitN_cases isComma s with h | ⟨a, d, b, rfl, h1, h2⟩
    · rw [splitN_none _ _ _ h]; simp [commas]
    · rw [splitN_cut n _ a d b h1 h2]
      obtain ⟨e1, e2, e3⟩ := ih b
      have hd : d = ',' := by simpa [isComma] using h2
      refine ⟨?_, by simp, by simpa using e3⟩
      cases hs : splitN (n + 1) isComma b with
      | nil => exact absurd hs e2
      | cons x xs => rw [commas, ← hs, e1, hd]

theorem splitAll_commas (s : Str) : commas (splitAll isComma s) = s := by
  have : ∀ n (s : Str), s.length < n → commas (splitAll isComma s) = s ∧ splitAll isComma s ≠ [] := by
    intro n
    induction n with
    | zero => intro s h; omega
    | succ n ih =>
      intro s hn
      rcases splitN_cases isComma s with h | ⟨a, d, b, rfl, h1, h2⟩
      · rw [splitAll_none _ _ h]; simp [commas]
      · rw [splitAll_cut _ a d b h1 h2]
        obtain ⟨e1, e2⟩ := ih b (by simp at hn; omega)
        have hd : d = ',' := by simpa [isComma] using h2
        refine ⟨?_, by simp⟩
        cases hs : splitAll isComma b with
        | nil => exact absurd hs e2
        | cons x xs => rw [commas, ← hs, e1, hd]
  exact (this (s.length + 1) s (by omega)).1

theorem optNum_iff (s : Str) (t : Option UInt8) (rest : List Str) : (parseOptional (s :: rest)).1 = some t ↔ OptNum s t := by
  unfold parseOptional
  dsimp only
  by_cases hs : s = []
  · subst hs
    simp only [if_true, Option.some.injEq]
    constructor
    · rintro rfl; exact .missing
    · intro h
      cases h with
      | missing => rfl
      | given h => exact absurd rfl (numberIs_chars h).1
  · rw [if_neg hs]
    constructor
    · intro h
      split at h
      · rename_i i hi
        simp only [Option.some.injEq] at h
        subst h
        exact .given ((num8_iff _ _).1 hi)
      · cases h
    · intro h
      cases h with
      | missing => exact absurd rfl hs
      | given h => rw [← num8_iff] at h; simp [h]

theorem parseOptional_rest (s : Str) (rest : List Str) : (parseOptional (s :: rest)).2 = rest := by
  unfold parseOptional
  dsimp only
  (repeat' split) <;> rfl

theorem flashIs_iff (s : Str) (t : Option UInt8) (rest : List Str) :
    (parseOptional99 (s :: rest)).1 = some t ↔ FlashIs s t := by
  unfold parseOptional99 FlashIs
  dsimp only
  by_cases hs : s = []
  · subst hs
    simp only [if_true, Option.some.injEq]
    constructor
    · rintro rfl; exact ⟨.missing, by simp⟩
    · rintro ⟨h, _⟩
      cases h with
      | missing => rfl
      | given h => exact absurd rfl (numberIs_chars h).1
  · rw [if_neg hs]
    constructor
    · intro h
      split at h
      · rename_i i hi
        split at h
        · simp only [Option.some.injEq] at h
          subst h
          exact ⟨.given ((num8_iff _ _).1 hi), by simpa⟩
        · cases h
      · cases h
    · rintro ⟨h, h9⟩
      cases h with
      | missing => exact absurd rfl hs
      | given h => rw [← num8_iff] at h; simp [h, h9]

theorem parseOptional99_rest (s : Str) (rest : List Str) : (parseOptional99 (s :: rest)).2 = rest := by
  unfold parseOptional99
  dsimp only
  (repeat' split) <;> rfl

theorem nonzero_iff (s : Str) (n : UInt8) (rest : List Str) : (parseNonzero (s :: rest)).1 = some n ↔ Num8 s n ∧ n ≠ 0 := by
  rw [← num8_iff]
  unfold parseNonzero
  dsimp only
  cases parseU8 s with
  | none => simp
  | some i =>
    dsimp only
    split
    · simp only [Option.some.injEq]
      constructor
      · rintro rfl; exact ⟨rfl, by assumption⟩
      · exact And.left
    · simp only [reduceCtorEq, Option.some.injEq, false_iff]
      rintro ⟨rfl, h⟩
      contradiction

theorem parseNonzero_rest (s : Str) (rest : List Str) : (parseNonzero (s :: rest)).2 = rest := by
  unfold parseNonzero
  dsimp only
  (repeat' split) <;> rfl

theorem version_iff (s : Str) (o : Option UInt16) (rest : List Str) :
    parseVersionId (s :: rest) = some o ↔ ∃ v, o = some v ∧ VersionIs s v := by
  unfold parseVersionId VersionIs
  dsimp only
  constructor
  · intro h
    split at h
    · rename_i hb
      split at h
      · rename_i i hi
        rw [numHex_iff] at hi
        cases h
        refine ⟨i, rfl, ?_, hi⟩
        rw [← blen_ascii s (number_ascii (by decide) hi)]
        exact hb
      · cases h
    · cases h
  · rintro ⟨v, rfl, h1, h2⟩
    rw [blen_ascii s (number_ascii (by decide) h2), if_pos h1, (numHex_iff _ _).2 h2]

theorem num8_comma {s n} (h : Num8 s n) : ∀ c ∈ s, isComma c = false := number_comma (by decide) h
theorem num16_comma {s n} (h : Num16 s n) : ∀ c ∈ s, isComma c = false := number_comma (by decide) h
theorem num32_comma {s n} (h : Num32 s n) : ∀ c ∈ s, isComma c = false := number_comma (by decide) h
theorem version_comma {s n} (h : VersionIs s n) : ∀ c ∈ s, isComma c = false := number_comma (by decide) h.2
theorem optNum_comma {s n} (h : OptNum s n) : ∀ c ∈ s, isComma c = false := by
  cases h with
  | missing => simp
  | given h => exact num8_comma h
theorem optNum_O {s n} (h : OptNum s n) : ∀ c ∈ s, isO c = false := by
  cases h with
  | missing => simp
  | given h => exact number_O h
theorem optNum_T {s n} (h : OptNum s n) : ∀ c ∈ s, isT c = false := by
  cases h with
  | missing => simp
  | given h => exact number_T h

theorem parseColor_pieces (ps : List Str) (c : Color) : parseColor ps = some c ↔
    (∃ a n, ps = [a] ∧ c = .legacy n ∧ Num8 a n) ∨
    (∃ a b d r g k, ps = [a, b, d] ∧ c = .rgb r g k ∧ Num8 a r ∧ Num8 b g ∧ Num8 d k) := by
  simp only [← num8_iff]
  unfold parseColor
  match ps with
  | [] => simp
  | [a] =>
    simp only [List.map_cons, List.map_nil]
    cases h : parseU8 a with
    | none => simp [h]
    | some n =>
      constructor
      · rintro ⟨⟩; exact .inl ⟨a, n, rfl, rfl, h⟩
      · rintro (⟨_, _, ⟨⟩, rfl, e⟩ | ⟨_, _, _, _, _, _, ⟨⟩, _⟩)
        rw [h] at e; cases e; rfl
  | [a, b] => simp
  | [a, b, d] =>
    simp only [List.map_cons, List.map_nil]
    constructor
    · intro h
      cases h1 : parseU8 a <;> cases h2 : parseU8 b <;> cases h3 : parseU8 d <;> simp only [h1, h2, h3] at h <;> cases h
      exact .inr ⟨_, _, _, _, _, _, rfl, rfl, h1, h2, h3⟩
    · rintro (⟨_, _, ⟨⟩, _⟩ | ⟨_, _, _, _, _, _, ⟨⟩, rfl, e1, e2, e3⟩)
      rw [e1, e2, e3]
  | _ :: _ :: _ :: _ :: _ => simp

theorem colorIs_iff (s : Str) (c : Color) : parseColor (splitAll isComma s) = some c ↔ ColorIs s c := by
  rw [parseColor_pieces]
  constructor
  · have e := splitAll_commas s
    rintro (⟨a, n, hs, rfl, h⟩ | ⟨a, b, d, r, g, k, hs, rfl, h1, h2, h3⟩)
    · rw [hs] at e
      simp only [commas] at e
      subst e
      exact .legacy h
    · rw [hs] at e
      simp only [commas] at e
      subst e
      have := ColorIs.rgb h1 h2 h3
      simpa using this
  · intro h
    cases h with
    | legacy h => exact .inl ⟨_, _, splitAll_none _ _ (num8_comma h), rfl, h⟩
    | @rgb a b d r g k h1 h2 h3 =>
      refine .inr ⟨a, b, d, r, g, k, ?_, rfl, h1, h2, h3⟩
      rw [List.append_assoc, List.cons_append, splitAll_cut _ _ _ _ (num8_comma h1) rfl,
        splitAll_cut _ _ _ _ (num8_comma h2) rfl, splitAll_none _ _ (num8_comma h3)]

theorem parseXY_iff (a b : Str) (x y : UInt16) : parseXY a b = some (x, y) ↔ Num16 a x ∧ Num16 b y ∧ x ≠ 0 ∧ y ≠ 0 := by
  rw [← num16_iff, ← num16_iff]
  have pos : ∀ x : UInt16, x > 0 ↔ x ≠ 0 := by
    intro x
    rw [gt_iff_lt, UInt16.lt_iff_toNat_lt, ne_eq, ← UInt16.toNat_inj]
    simp only [UInt16.toNat_zero]; omega
  unfold parseXY
  cases h1 : parseU16 a <;> cases h2 : parseU16 b <;> simp only [reduceCtorEq, false_and, and_false, Option.some.injEq]
  rename_i p q
  simp only [pos]
  split
  · simp only [Option.some.injEq, Prod.mk.injEq]
    constructor
    · rintro ⟨rfl, rfl⟩; exact ⟨rfl, rfl, by assumption⟩
    · exact fun h => ⟨h.1, h.2.1⟩
  · simp only [reduceCtorEq, false_iff]
    rintro ⟨rfl, rfl, h⟩
    contradiction

theorem parseRectangle_pieces (ps rest : List Str) (r : Rectangle) : parseRectangle ps = (some r, rest) ↔
    ∃ a b c d, ps = a :: b :: c :: d :: rest ∧ Num16 a r.x ∧ Num16 b r.y ∧ r.x ≠ 0 ∧ r.y ≠ 0 ∧
      Num16 c r.width ∧ Num16 d r.height := by
  have pos : ∀ x : UInt16, x > 0 ↔ x ≠ 0 := by
    intro x
    rw [gt_iff_lt, UInt16.lt_iff_toNat_lt, ne_eq, ← UInt16.toNat_inj]
    simp only [UInt16.toNat_zero]; omega
  simp only [← num16_iff]
  match ps with
  | [] | [_] | [_, _] | [_, _, _] => simp [parseRectangle]
  | a :: b :: c :: d :: tl =>
    simp only [parseRectangle, pos]
    cases h1 : parseU16 a <;> cases h2 : parseU16 b <;> cases h3 : parseU16 c <;> cases h4 : parseU16 d <;>
      simp only [Prod.mk.injEq, reduceCtorEq, false_and, List.cons.injEq, false_iff, not_exists]
    case some.some.some.some =>
      split
      · simp only [Prod.mk.injEq, Option.some.injEq]
        constructor
        · rintro ⟨rfl, rfl⟩
          rename_i h
          exact ⟨a, b, c, d, ⟨rfl, rfl, rfl, rfl, rfl⟩, h1, h2, h.1, h.2, h3, h4⟩
        · rintro ⟨_, _, _, _, ⟨rfl, rfl, rfl, rfl, rfl⟩, e1, e2, _, _, e3, e4⟩
          rw [h1] at e1; rw [h2] at e2; rw [h3] at e3; rw [h4] at e4
          cases e1; cases e2; cases e3; cases e4
          exact ⟨rfl, rfl⟩
      · simp only [Prod.mk.injEq, reduceCtorEq, false_and, false_iff, not_exists]
        rintro _ _ _ _ ⟨⟨rfl, rfl, rfl, rfl, rfl⟩, e1, e2, e3, e4, _, _⟩
        rw [h1] at e1; rw [h2] at e2
        cases e1; cases e2
        rename_i h
        exact h ⟨e3, e4⟩
    all_goals
      rintro _ _ _ _ ⟨⟨rfl, rfl, rfl, rfl, rfl⟩, e1, e2, _, _, e3, e4⟩
      rw [h1] at e1; rw [h2] at e2; rw [h3] at e3; rw [h4] at e4
      first | cases e1; done | cases e2; done | cases e3; done | cases e4; done

theorem rectIs_pieces {a : Str} {r} (h : RectIs a r) : ∃ b c d e, a = b ++ ',' :: (c ++ ',' :: (d ++ ',' :: e)) ∧
    Num16 b r.x ∧ Num16 c r.y ∧ r.x ≠ 0 ∧ r.y ≠ 0 ∧ Num16 d r.width ∧ Num16 e r.height := by
  cases h with
  | mk hp h1 h2 =>
    cases hp with
    | mk h3 h4 h5 h6 => exact ⟨_, _, _, _, by simp, h3, h4, h5, h6, h1, h2⟩

theorem rectIs_of {b c d e : Str} {r : Rectangle} (h1 : Num16 b r.x) (h2 : Num16 c r.y) (h3 : r.x ≠ 0) (h4 : r.y ≠ 0)
    (h5 : Num16 d r.width) (h6 : Num16 e r.height) : RectIs (b ++ ',' :: (c ++ ',' :: (d ++ ',' :: e))) r := by
  have := RectIs.mk (.mk h1 h2 h3 h4) h5 h6
  simpa using this

end Ntcip
