import Verif.Lemmas.Items
/-
C05: case of tags.
-/
namespace Ntcip
open Spec

theorem char_eq_iff (c d : Char) : c = d ↔ c.toNat = d.toNat := by
  constructor
  · rintro rfl; rfl
  · intro h; exact Char.ext (UInt32.toNat_inj.1 h)

theorem asciiLower_toNat (c : Char) :
    (asciiLower c).toNat = if 65 ≤ c.toNat ∧ c.toNat ≤ 90 then c.toNat + 32 else c.toNat := by
  unfold asciiLower
  by_cases h : 'A' ≤ c ∧ c ≤ 'Z'
  · have h1 : 65 ≤ c.toNat := h.1
    have h2 : c.toNat ≤ 90 := h.2
    rw [if_pos h, if_pos ⟨h1, h2⟩]
    have key : ∀ n : Fin 26, (Char.ofNat (n.val + 65 + 32)).toNat = n.val + 65 + 32 := by decide +kernel
    have := key ⟨c.toNat - 65, by omega⟩
    rwa [show c.toNat - 65 + 65 = c.toNat by omega] at this
  · rw [if_neg h, if_neg (fun h' => h ⟨h'.1, h'.2⟩)]

theorem asciiLower_eq_other (c d : Char) (hd : ¬ (65 ≤ d.toNat ∧ d.toNat ≤ 90))
    (hd' : ¬ (97 ≤ d.toNat ∧ d.toNat ≤ 122)) : asciiLower c = d ↔ c = d := by
  rw [char_eq_iff, char_eq_iff, asciiLower_toNat]; split <;> omega

theorem asciiLower_isComma (c : Char) : isComma (asciiLower c) = isComma c := by
  unfold isComma
  rw [Bool.eq_iff_iff]
  simpa using asciiLower_eq_other c ',' (by decide) (by decide)

theorem asciiLower_isO (c : Char) : isO (asciiLower c) = isO c := by
  unfold isO
  rw [Bool.eq_iff_iff]
  simp only [Bool.or_eq_true, beq_iff_eq]
  simp only [char_eq_iff, asciiLower_toNat]
  have e1 : 'o'.toNat = 111 := rfl
  have e2 : 'O'.toNat = 79 := rfl
  rw [e1, e2]; split <;> omega

theorem asciiLower_isT (c : Char) : isT (asciiLower c) = isT c := by
  unfold isT
  rw [Bool.eq_iff_iff]
  simp only [Bool.or_eq_true, beq_iff_eq]
  simp only [char_eq_iff, asciiLower_toNat]
  have e1 : 't'.toNat = 116 := rfl
  have e2 : 'T'.toNat = 84 := rfl
  rw [e1, e2]; split <;> omega

theorem asciiLower_t (c : Char) : (asciiLower c = 't' ∨ asciiLower c = 'T') ↔ (c = 't' ∨ c = 'T') := by
  have := asciiLower_isT c
  rw [Bool.eq_iff_iff] at this
  simpa [isT] using this

theorem asciiLower_o (c : Char) : (asciiLower c = 'o' ∨ asciiLower c = 'O') ↔ (c = 'o' ∨ c = 'O') := by
  have := asciiLower_isO c
  rw [Bool.eq_iff_iff] at this
  simpa [isO] using this

theorem asciiLower_utf8Size (c : Char) : (asciiLower c).utf8Size = c.utf8Size := by
  by_cases h : c.toNat < 128
  · rw [(utf8Size_ascii c).2 h, (utf8Size_ascii _).2 ((asciiLower_ascii c).2 h)]
  · have : asciiLower c = c := by
      rw [char_eq_iff, asciiLower_toNat, if_neg (by omega)]
    rw [this]

theorem asciiLower_digitVal (radix : Nat) (c : Char) : digitVal radix (asciiLower c) = digitVal radix c := by
  unfold digitVal
  simp only [asciiLower_toNat]
  by_cases h : 65 ≤ c.toNat ∧ c.toNat ≤ 90
  · rw [if_pos h, if_neg (by omega), if_neg (by omega : ¬ (48 ≤ c.toNat ∧ c.toNat ≤ 57)),
      if_neg (by omega : ¬ (97 ≤ c.toNat ∧ c.toNat ≤ 102)),
      if_neg (by omega : ¬ (65 ≤ c.toNat + 32 ∧ c.toNat + 32 ≤ 70))]
    by_cases h2 : c.toNat ≤ 70
    · rw [if_pos (by omega), if_pos (by omega), show c.toNat + 32 - 87 = c.toNat - 55 by omega]
    · rw [if_neg (by omega), if_neg (by omega)]
  · rw [if_neg h]

/-- lower case of a string -/
abbrev lower (s : Str) : Str := s.map asciiLower

theorem blen_lower (s : Str) : blen (lower s) = blen s := by
  induction s with
  | nil => rfl
  | cons c s ih =>
    simp only [lower, List.map_cons, blen, asciiLower_utf8Size]
    rw [← ih]

theorem lower_eq_nil (s : Str) : lower s = [] ↔ s = [] := by simp [lower]

theorem digitsVal_lower (radix acc : Nat) (s : Str) :
    digitsVal radix acc (lower s) = digitsVal radix acc s := by
  induction s generalizing acc with
  | nil => rfl
  | cons c s ih =>
    simp only [lower, List.map_cons, digitsVal, asciiLower_digitVal]
    cases digitVal radix c with
    | none => rfl
    | some d => exact ih _

theorem parseUInt_lower (radix max : Nat) (s : Str) :
    parseUInt radix max (lower s) = parseUInt radix max s := by
  cases s with
  | nil => rfl
  | cons c s =>
    by_cases hp : c = '+'
    · subst hp
      have e : asciiLower '+' = '+' := by decide
      simp only [lower, List.map_cons, e, parseUInt]
      have := digitsVal_lower radix 0 s
      cases s with
      | nil => rfl
      | cons d s =>
        simp only [lower, List.map_cons] at this
        simp only [List.map_cons, this]
    · have hp' : asciiLower c ≠ '+' := by
        rw [ne_eq, asciiLower_eq_other c '+' (by decide) (by decide)]; exact hp
      rw [parseUInt_digits _ _ _ (by simp [lower]) (by simpa [lower] using hp'),
        parseUInt_digits _ _ _ (by simp) (by simpa using hp), digitsVal_lower]

theorem parseU8_lower (s : Str) : parseU8 (lower s) = parseU8 s := by
  simp [parseU8, parseUInt_lower]
theorem parseU16_lower (s : Str) : parseU16 (lower s) = parseU16 s := by
  simp [parseU16, parseUInt_lower]
theorem parseHex16_lower (s : Str) : parseHex16 (lower s) = parseHex16 s := by
  simp [parseHex16, parseUInt_lower]

theorem splitAux_lower (p : Char → Bool) (hp : ∀ c, p (asciiLower c) = p c) (n : Option Nat)
    (cur s : Str) : splitAux p n (lower cur) (lower s) = (splitAux p n cur s).map lower := by
  induction s generalizing n cur with
  | nil => simp [splitAux, lower]
  | cons c s ih =>
    have ih1 := ih (n.map (· - 1)) []
    have ih2 := ih n (c :: cur)
    simp only [lower, List.map_nil, List.map_cons] at ih1 ih2
    have key : (if p (asciiLower c) then (lower cur).reverse :: splitAux p (n.map (· - 1)) [] (lower s)
        else splitAux p n (asciiLower c :: lower cur) (lower s)) =
        (if p c then cur.reverse :: splitAux p (n.map (· - 1)) [] s
          else splitAux p n (c :: cur) s).map lower := by
      rw [hp]
      split
      · simp [lower, ih1]
      · exact ih2
    cases n with
    | none => simpa [splitAux, lower] using key
    | some n => cases n with
      | zero => simp [splitAux, lower]
      | succ n => simpa [splitAux, lower] using key

theorem splitN_lower (n : Nat) (p : Char → Bool) (hp : ∀ c, p (asciiLower c) = p c) (s : Str) :
    splitN n p (lower s) = (splitN n p s).map lower := splitAux_lower p hp _ [] s
theorem splitAll_lower (p : Char → Bool) (hp : ∀ c, p (asciiLower c) = p c) (s : Str) :
    splitAll p (lower s) = (splitAll p s).map lower := splitAux_lower p hp _ [] s

theorem parseColor_lower (v : List Str) : parseColor (v.map lower) = parseColor v := by
  unfold parseColor
  rw [List.map_map, show parseU8 ∘ lower = parseU8 from funext parseU8_lower]

theorem parseRectangle_lower (v : List Str) : parseRectangle (v.map lower) =
    ((parseRectangle v).1, (parseRectangle v).2.map lower) := by
  match v with
  | [] | [_] | [_, _] | [_, _, _] => simp [parseRectangle]
  | x :: y :: w :: h :: rest =>
    simp only [List.map_cons, parseRectangle, parseU16_lower]
    (repeat' split) <;> rfl

theorem parseIntU8_lower (v : List Str) : parseIntU8 (v.map lower) =
    ((parseIntU8 v).1, (parseIntU8 v).2.map lower) := by
  cases v <;> simp [parseIntU8, parseU8_lower]

theorem parseOptional_lower (v : List Str) : parseOptional (v.map lower) =
    ((parseOptional v).1, (parseOptional v).2.map lower) := by
  cases v with
  | nil => simp [parseOptional]
  | cons s v =>
    simp only [List.map_cons, parseOptional, lower_eq_nil, parseU8_lower]
    split
    · rfl
    · split <;> rfl

theorem parseOptional99_lower (v : List Str) : parseOptional99 (v.map lower) =
    ((parseOptional99 v).1, (parseOptional99 v).2.map lower) := by
  cases v with
  | nil => simp [parseOptional99]
  | cons s v =>
    simp only [List.map_cons, parseOptional99, lower_eq_nil, parseU8_lower]
    split
    · rfl
    · split
      · split <;> rfl
      · rfl

theorem parseNonzero_lower (v : List Str) : parseNonzero (v.map lower) =
    ((parseNonzero v).1, (parseNonzero v).2.map lower) := by
  cases v with
  | nil => simp [parseNonzero]
  | cons s v =>
    simp only [List.map_cons, parseNonzero, parseU8_lower]
    split
    · split <;> rfl
    · rfl

theorem parseVersionId_lower (v : List Str) : parseVersionId (v.map lower) = parseVersionId v := by
  cases v with
  | nil => rfl
  | cons s v => simp only [List.map_cons, parseVersionId, blen_lower, parseHex16_lower]

theorem parsePoint_lower (v : List Str) : parsePoint (v.map lower) =
    ((parsePoint v).1, (parsePoint v).2.map lower) := by
  match v with
  | [] | [_] => simp [parsePoint]
  | x :: y :: rest =>
    simp only [List.map_cons, parsePoint, parseXY, parseU16_lower]
    split <;> rfl

theorem parseFlashOn_lower (r : Str) : parseFlashOn (lower r) = parseFlashOn r := by
  unfold parseFlashOn
  rw [splitN_lower _ _ asciiLower_isO, parseOptional99_lower]
  simp only [parseOptional99_lower]

theorem parseFlashOff_lower (r : Str) : parseFlashOff (lower r) = parseFlashOff r := by
  unfold parseFlashOff
  rw [splitN_lower _ _ asciiLower_isT, parseOptional99_lower]
  simp only [parseOptional99_lower]

theorem lower_eq_digit (r : Str) (d : Char) (hd : ¬ (65 ≤ d.toNat ∧ d.toNat ≤ 90))
    (hd' : ¬ (97 ≤ d.toNat ∧ d.toNat ≤ 122)) : lower r = [d] ↔ r = [d] := by
  match r with
  | [] => simp [lower]
  | [c] => simp [lower, asciiLower_eq_other c d hd hd']
  | _ :: _ :: _ => simp [lower]

/-- tags without free text -/
def Kind.noText : Kind → Bool
  | .ms | .msEnd | .mv => false
  | _ => true

theorem body_lower (k : Kind) (hk : k.noText = true) (r : Str) : k.body (lower r) = k.body r := by
  cases k <;> simp only [Kind.noText, Bool.false_eq_true] at hk <;> simp only [Kind.body, lower_eq_nil, blen_lower,
      parseU8_lower, parseHex16_lower, splitN_lower _ isComma asciiLower_isComma,
      splitN_lower _ isO asciiLower_isO, splitAll_lower _ asciiLower_isComma, parseColor_lower,
      parseRectangle_lower, parseIntU8_lower, parseOptional_lower, parseNonzero_lower,
      parseVersionId_lower, parsePoint_lower]
  case jl =>
    simp only [JustificationLine.new, lower_eq_digit r '1' (by decide) (by decide),
      lower_eq_digit r '2' (by decide) (by decide), lower_eq_digit r '3' (by decide) (by decide),
      lower_eq_digit r '4' (by decide) (by decide), lower_eq_digit r '5' (by decide) (by decide)]
  case jp =>
    simp only [JustificationPage.new, lower_eq_digit r '1' (by decide) (by decide),
      lower_eq_digit r '2' (by decide) (by decide), lower_eq_digit r '3' (by decide) (by decide),
      lower_eq_digit r '4' (by decide) (by decide)]
  case fl =>
    cases r with
    | nil => rfl
    | cons c r =>
      have h1 := parseFlashOn_lower r
      have h2 := parseFlashOff_lower r
      simp only [lower] at h1 h2
      simp only [lower, List.map_cons, asciiLower_ascii, asciiLower_t, asciiLower_o, h1, h2]

/-- the tag has a name in the list -/
def Spec.NameIn (names : List (List Char)) (b : List Char) : Prop :=
  ∃ n r, b = n ++ r ∧ n.map Char.toLower ∈ names

/-- the tags with free text: manufacturer specific, moving text -/
def Spec.freeText : List (List Char) := [c!"ms", c!"/ms", c!"mv"]

theorem asciiLower_idem (c : Char) : asciiLower (asciiLower c) = asciiLower c := by
  rw [char_eq_iff, asciiLower_toNat, asciiLower_toNat]
  split
  · rw [if_neg (by omega)]
  · rfl

theorem lower_prefix {pre r b' : Str} (h : lower (pre ++ r) = lower b') :
    ∃ pre' r', b' = pre' ++ r' ∧ lower pre' = lower pre ∧ lower r' = lower r := by
  refine ⟨b'.take pre.length, b'.drop pre.length, by simp, ?_, ?_⟩
  · simp only [lower, List.map_take]
    rw [show b'.map asciiLower = lower b' from rfl, ← h]
    simp [lower]
  · simp only [lower, List.map_drop]
    rw [show b'.map asciiLower = lower b' from rfl, ← h]
    simp [lower]

theorem kind_ok_lower (k : Kind) (r r' : Str) (h : lower r' = lower r) (hk : k.Ok r) : k.Ok r' := by
  cases k <;> try trivial
  intro c hc
  cases r' with
  | nil => simp at hc
  | cons d r' =>
    simp at hc; subst hc
    cases r with
    | nil => simp [lower] at h
    | cons e r =>
      simp [lower] at h
      have := hk e rfl
      rwa [h.1]

theorem lower_plain {b b' : Str} (h : lower b = lower b') (hb : Plain b) : Plain b' := by
  intro c hc
  have hm : asciiLower c ∈ lower b := by rw [h]; exact List.mem_map_of_mem hc
  obtain ⟨d, hd, he⟩ := List.mem_map.1 hm
  have hdp := hb d hd
  constructor
  · rintro rfl
    have e : asciiLower '[' = '[' := by decide
    rw [e, asciiLower_eq_other d '[' (by decide) (by decide)] at he
    exact hdp.1 he
  · rintro rfl
    have e : asciiLower ']' = ']' := by decide
    rw [e, asciiLower_eq_other d ']' (by decide) (by decide)] at he
    exact hdp.2 he

/-- one direction of C05 -/
theorem case_insensitive {b b' : Str} (hb : Plain b) (hx : ¬ NameIn freeText b)
    (h : lower b = lower b') {v : Value} (hv : tryFrom ('[' :: (b ++ [']'])) = .ok (.ok v)) :
    tryFrom ('[' :: (b' ++ [']'])) = .ok (.ok v) := by
  have hb' := lower_plain h hb
  rw [tryFrom_tag b hb] at hv
  rw [tryFrom_tag b' hb']
  rcases parseTag_cases b with ⟨k, pre, r, rfl, hp, hk⟩ | ⟨h2, -⟩
  · obtain ⟨pre', r', rfl, hp', hr'⟩ := lower_prefix h
    have hnt : k.noText = true := by
      apply Decidable.byContradiction
      intro hnt
      apply hx
      refine ⟨pre, r, rfl, ?_⟩
      rw [show Char.toLower = asciiLower from funext fun c => (asciiLower_eq_toLower c).symm, hp]
      cases k <;> simp [Kind.noText] at hnt <;> decide
    rw [parseTag_kind k pre r hp hk] at hv
    rw [parseTag_kind k pre' r' (hp'.trans hp) (kind_ok_lower k r r' hr' hk),
      ← body_lower k hnt r', hr', body_lower k hnt r]
    revert hv
    cases k.body r with
    | panic p => simp [orTagValue]
    | ok o => cases o <;> simp [orTagValue]
  · rw [h2] at hv; simp at hv

/-- **C05** two tags, equal up to the case of ASCII letters, without free text (`[ms]`, `[/ms]`,
`[mv]`): one is accepted with a value exactly when the other is accepted with this value. -/
theorem C05_case_insensitive (b b' : Str) (hb : Plain b) (hx : ¬ NameIn freeText b)
    (h : b.map Char.toLower = b'.map Char.toLower) (v : Value) :
    tryFrom ('[' :: (b ++ [']'])) = .ok (.ok v) ↔ tryFrom ('[' :: (b' ++ [']'])) = .ok (.ok v) := by
  have h' : lower b = lower b' := by
    simpa [lower, show asciiLower = Char.toLower from funext asciiLower_eq_toLower] using h
  refine ⟨case_insensitive hb hx h', case_insensitive (lower_plain h' hb) ?_ h'.symm⟩
  rintro ⟨n, r, rfl, hn⟩
  apply hx
  obtain ⟨n', r', rfl, hn', -⟩ := lower_prefix h'.symm
  refine ⟨n', r', rfl, ?_⟩
  simp only [lower, show asciiLower = Char.toLower from funext asciiLower_eq_toLower] at hn'
  rw [hn']; exact hn

-- a case with letters in name and parameters
example : tryFrom c!"[Fo2,aBcD]" = .ok (.ok (.font (some (2, some 0xABCD)))) ∧
    tryFrom c!"[fO2,AbCd]" = .ok (.ok (.font (some (2, some 0xABCD)))) ∧
    tryFrom c!"[FLT3O4]" = tryFrom c!"[flt3o4]" := by decide +kernel

/-- with free text the case matters for the value (it is kept as written) -/
example : tryFrom c!"[ms1,Abc]" ≠ tryFrom c!"[ms1,aBC]" := by decide +kernel

end Ntcip
