import Verif.Lemmas.Items
/-
C03: panics of the MULTI analysis functions.
-/
namespace Ntcip
open Spec

/-- `s` is `name` (lower case) up to the case of ASCII letters -/
def Spec.Named (s name : List Char) : Prop := s.map Char.toLower = name

/-- the contents of tags on which the parser panics: a non-ASCII character right where one byte is
cut off -/
inductive Spec.PanicTag : List Char → Prop
  /-- `[fl` and a non-ASCII character -/
  | flash (n : List Char) (c : Char) (r : List Char) : Named n c!"fl" → 128 ≤ c.toNat →
      PanicTag (n ++ c :: r)
  /-- `[mv` and a non-ASCII character -/
  | mode (n : List Char) (c : Char) (r : List Char) : Named n c!"mv" → 128 ≤ c.toNat →
      PanicTag (n ++ c :: r)
  /-- `[mvc` or `[mvl` and a non-ASCII character -/
  | direction (n : List Char) (m c : Char) (r : List Char) : Named n c!"mv" → m ∈ c!"cClL" →
      128 ≤ c.toNat → PanicTag (n ++ m :: c :: r)
  /-- `[mvl`, a digit and a non-ASCII character -/
  | delay (n : List Char) (m d c : Char) (r : List Char) : Named n c!"mv" → m ∈ c!"lL" →
      d ∈ c!"0123456789" → 128 ≤ c.toNat → PanicTag (n ++ m :: d :: c :: r)

theorem named_iff {s name : Str} : Named s name ↔ s.map asciiLower = name := by
  unfold Named
  rw [show asciiLower = Char.toLower from funext asciiLower_eq_toLower]

theorem parseU8_one (d : Char) : (parseU8 [d]).isSome = true ↔ d ∈ c!"0123456789" := by
  have hd : d ∈ c!"0123456789" ↔ (48 ≤ d.toNat ∧ d.toNat ≤ 57) := by
    constructor
    · intro h
      have : ∀ c ∈ c!"0123456789", 48 ≤ c.toNat ∧ c.toNat ≤ 57 := by decide
      exact this d h
    · rintro ⟨h1, h2⟩
      have : ∀ n : Fin 10, Char.ofNat (n.val + 48) ∈ c!"0123456789" := by decide +kernel
      have := this ⟨d.toNat - 48, by omega⟩
      rwa [show d.toNat - 48 + 48 = d.toNat by omega, Char.ofNat_toNat] at this
  by_cases hp : d = '+'
  · subst hp; decide
  · rw [hd, parseU8, parseUInt_digits _ _ _ (by simp) (by simpa using hp)]
    simp only [digitsVal, digitVal_ten]
    by_cases h : Spec.IsDigit d
    · rw [if_pos h]
      unfold Spec.IsDigit at h
      simp [show d.toNat - 48 ≤ 255 by omega, h]
    · rw [if_neg h]
      unfold Spec.IsDigit at h
      simpa using h

theorem movingTextMode_panic (r : Str) (m : MovingTextMode) :
    (∃ p, parseMovingTextMode r m = .panic p) ↔ ∃ c s, r = c :: s ∧ 128 ≤ c.toNat := by
  unfold parseMovingTextMode
  cases r with
  | nil => simp
  | cons c r =>
    by_cases hc : c.toNat < 128
    · obtain ⟨h1, h2⟩ := (slice_one c r).1 hc
      simp only [ne_eq, reduceCtorEq, not_false_eq_true, if_true, h1, Res.ok_bind]
      constructor
      · rintro ⟨p, h⟩; split at h <;> simp at h
      · rintro ⟨c', s, h, h'⟩; simp at h; obtain ⟨rfl, rfl⟩ := h; omega
    · obtain ⟨h1, h2⟩ := (slice_one c r).2 hc
      simp only [ne_eq, reduceCtorEq, not_false_eq_true, if_true, h1, Res.panic_bind]
      exact ⟨fun _ => ⟨c, r, rfl, by omega⟩, fun _ => ⟨_, rfl⟩⟩

theorem movingTextLinear_panic (r : Str) :
    (∃ p, parseMovingTextLinear r = .panic p) ↔ (∃ c s, r = c :: s ∧ 128 ≤ c.toNat) ∨
      ∃ d c s, r = d :: c :: s ∧ d ∈ c!"0123456789" ∧ 128 ≤ c.toNat := by
  unfold parseMovingTextLinear
  cases r with
  | nil => simp
  | cons d r =>
    by_cases hc : d.toNat < 128
    · obtain ⟨h1, h2⟩ := (slice_one d r).1 hc
      simp only [ne_eq, reduceCtorEq, not_false_eq_true, if_true, h1, h2, Res.ok_bind]
      have hn : ¬ ∃ c s, d :: r = c :: s ∧ 128 ≤ c.toNat := by
        rintro ⟨c, s, h, h'⟩; simp at h; obtain ⟨rfl, rfl⟩ := h; omega
      rw [or_iff_right hn]
      have hd := parseU8_one d
      cases hv : parseU8 [d] with
      | some i =>
        simp only
        rw [movingTextMode_panic]
        rw [hv] at hd
        constructor
        · rintro ⟨c, s, rfl, h⟩; exact ⟨d, c, s, rfl, hd.1 rfl, h⟩
        · rintro ⟨d', c, s, h, _, h'⟩; simp at h; exact ⟨c, s, h.2, h'⟩
      | none =>
        simp only
        rw [movingTextMode_panic]
        rw [hv] at hd
        constructor
        · intro h; exact absurd h hn
        · rintro ⟨d', c, s, h, h2, h'⟩
          simp at h; rw [← h.1] at h2
          exact absurd (hd.2 h2) (by simp)
    · obtain ⟨h1, h2⟩ := (slice_one d r).2 hc
      simp only [ne_eq, reduceCtorEq, not_false_eq_true, if_true, h1, Res.panic_bind]
      exact ⟨fun _ => .inl ⟨d, r, rfl, by omega⟩, fun _ => ⟨_, rfl⟩⟩

theorem mem_cl {c : Char} : c ∈ c!"lL" ↔ c = 'l' ∨ c = 'L' := by simp
theorem mem_ccl {c : Char} : c ∈ c!"cClL" ↔ c = 'c' ∨ c = 'C' ∨ c = 'l' ∨ c = 'L' := by simp

/-- panics of a tag by what follows the name -/
theorem body_panic (k : Kind) (r : Str) :
    (∃ p, k.body r = .panic p) ↔
      (k = .fl ∧ ∃ c s, r = c :: s ∧ 128 ≤ c.toNat) ∨
      (k = .mv ∧ ((∃ c s, r = c :: s ∧ 128 ≤ c.toNat) ∨
        (∃ m c s, r = m :: c :: s ∧ m ∈ c!"cClL" ∧ 128 ≤ c.toNat) ∨
        (∃ m d c s, r = m :: d :: c :: s ∧ m ∈ c!"lL" ∧ d ∈ c!"0123456789" ∧ 128 ≤ c.toNat))) := by
  cases k
  case fl =>
    simp only [Kind.body, reduceCtorEq, true_and, false_and, or_false]
    cases r with
    | nil => simp
    | cons c r =>
      simp only
      by_cases hc : c.toNat < 128
      · rw [if_pos hc]
        constructor
        · rintro ⟨p, h⟩; (repeat' split at h) <;> simp at h
        · rintro ⟨c', s, h, h'⟩; simp at h; obtain ⟨rfl, rfl⟩ := h; omega
      · rw [if_neg hc]
        exact ⟨fun _ => ⟨c, r, rfl, by omega⟩, fun _ => ⟨_, rfl⟩⟩
  case mv =>
    simp only [Kind.body, reduceCtorEq, true_and, false_and, false_or]
    cases r with
    | nil => simp
    | cons m r =>
      simp only
      by_cases hc : m.toNat < 128
      · rw [if_pos hc]
        have hn : ¬ ∃ c s, m :: r = c :: s ∧ 128 ≤ c.toNat := by
          rintro ⟨c, s, h, h'⟩; simp at h; obtain ⟨rfl, rfl⟩ := h; omega
        rw [or_iff_right hn]
        have e : ∀ {a b : Char} {s t : Str}, a :: s = b :: t ↔ a = b ∧ s = t := by simp
        by_cases h1 : m = 'c' ∨ m = 'C'
        · rw [if_pos h1, movingTextMode_panic]
          constructor
          · rintro ⟨c, s, rfl, h⟩; exact .inl ⟨m, c, s, rfl, mem_ccl.2 (by grind), h⟩
          · rintro (⟨m', c, s, h, _, h'⟩ | ⟨m', d, c, s, h, h2, _⟩)
            · exact ⟨c, s, (e.1 h).2, h'⟩
            · rw [mem_cl, ← (e.1 h).1] at h2; rcases h1 with rfl | rfl <;> simp at h2
        · rw [if_neg h1]
          by_cases h2 : m = 'l' ∨ m = 'L'
          · rw [if_pos h2, movingTextLinear_panic]
            constructor
            · rintro (⟨c, s, rfl, h⟩ | ⟨d, c, s, rfl, hd, h⟩)
              · exact .inl ⟨m, c, s, rfl, mem_ccl.2 (by grind), h⟩
              · exact .inr ⟨m, d, c, s, rfl, mem_cl.2 h2, hd, h⟩
            · rintro (⟨m', c, s, h, _, h'⟩ | ⟨m', d, c, s, h, _, hd, h'⟩)
              · exact .inl ⟨c, s, (e.1 h).2, h'⟩
              · exact .inr ⟨d, c, s, (e.1 h).2, hd, h'⟩
          · rw [if_neg h2]
            constructor
            · rintro ⟨p, h⟩; simp at h
            · rintro (⟨m', c, s, h, h3, _⟩ | ⟨m', d, c, s, h, h3, _⟩)
              · rw [mem_ccl, ← (e.1 h).1] at h3; grind
              · rw [mem_cl, ← (e.1 h).1] at h3; grind
      · rw [if_neg hc]
        exact ⟨fun _ => .inl ⟨m, r, rfl, by omega⟩, fun _ => ⟨_, rfl⟩⟩
  all_goals simp [Kind.body]

/-- **C03 (one item)** parsing an item panics exactly when it is a tag of one of the listed shapes -/
theorem C03_item_panics_iff (t : Str) (ht : Item t) :
    (∃ p, tryFrom t = .panic p) ↔ ∃ b, t = '[' :: (b ++ [']']) ∧ PanicTag b := by
  have notag : ∀ {x : Except SyntaxError Value}, tryFrom t = .ok x → ¬ ∃ p, tryFrom t = .panic p := by
    rintro x h ⟨p, h'⟩; rw [h] at h'; cases h'
  have key : ∀ b, Plain b → ((∃ p, tryFrom ('[' :: (b ++ [']'])) = .panic p) ↔ PanicTag b) := by
    intro b hb
    rw [tryFrom_tag b hb]
    constructor
    · rintro ⟨p, h⟩
      rcases parseTag_cases b with ⟨k, pre, r, rfl, hp, hk⟩ | ⟨h2, -⟩
      · rw [parseTag_kind k pre r hp hk] at h
        have hbp : ∃ p, k.body r = .panic p := by
          cases hkb : k.body r with
          | ok o => rw [hkb] at h; cases o <;> cases h
          | panic q => exact ⟨q, rfl⟩
        rcases (body_panic k r).1 hbp with ⟨rfl, c, s, rfl, hc⟩ | ⟨rfl, h3⟩
        · exact .flash pre c s (named_iff.2 hp) hc
        · rcases h3 with ⟨c, s, rfl, hc⟩ | ⟨m, c, s, rfl, hm, hc⟩ | ⟨m, d, c, s, rfl, hm, hd, hc⟩
          · exact .mode pre c s (named_iff.2 hp) hc
          · exact .direction pre m c s (named_iff.2 hp) hm hc
          · exact .delay pre m d c s (named_iff.2 hp) hm hd hc
      · rw [h2] at h; cases h
    · intro h
      have fin : ∀ (k : Kind) pre r, pre.map asciiLower = k.name → k.Ok r →
          (∃ p, k.body r = .panic p) → ∃ p, parseTag (pre ++ r) = .panic p := by
        rintro k pre r hp hk ⟨p, h⟩
        refine ⟨p, ?_⟩
        rw [parseTag_kind k pre r hp hk, h]; rfl
      cases h with
      | flash n c r hn hc =>
        exact fin .fl n _ (named_iff.1 hn) trivial ((body_panic _ _).2 (.inl ⟨rfl, c, r, rfl, hc⟩))
      | mode n c r hn hc =>
        exact fin .mv n _ (named_iff.1 hn) trivial
          ((body_panic _ _).2 (.inr ⟨rfl, .inl ⟨c, r, rfl, hc⟩⟩))
      | direction n m c r hn hm hc =>
        exact fin .mv n _ (named_iff.1 hn) trivial
          ((body_panic _ _).2 (.inr ⟨rfl, .inr (.inl ⟨m, c, r, rfl, hm, hc⟩)⟩))
      | delay n m d c r hn hm hd hc =>
        exact fin .mv n _ (named_iff.1 hn) trivial
          ((body_panic _ _).2 (.inr ⟨rfl, .inr (.inr ⟨m, d, c, r, rfl, hm, hd, hc⟩)⟩))
  have uniq : ∀ b b' : Str, '[' :: (b ++ [']']) = '[' :: (b' ++ [']']) → b = b' := by
    intro b b' h; simpa using h
  cases ht with
  | tag b hb =>
    rw [key b hb]
    constructor
    · intro h; exact ⟨b, rfl, h⟩
    · rintro ⟨b', h, h'⟩; rw [uniq b b' h]; exact h'
  | escOpen =>
    have : ¬ ∃ b : Str, c!"[[" = '[' :: (b ++ [']']) ∧ PanicTag b := by
      rintro ⟨b, h, -⟩; cases b with
      | nil => simp at h
      | cons c b => simp at h
    simp only [this, iff_false]; exact notag tryFrom_esc.1
  | escClose => simp [tryFrom_esc.2]
  | span _ hn hp =>
    have : ¬ ∃ b : Str, t = '[' :: (b ++ [']']) ∧ PanicTag b := by
      rintro ⟨b, rfl, -⟩; exact absurd (hp '[' (by simp)).1 (by simp)
    simp only [this, iff_false, tryFrom_span t hn hp]
    rintro ⟨p, h⟩; split at h <;> cases h
  | stray => simp [tryFrom_stray]
  | frag b hb =>
    have : ¬ ∃ b' : Str, '[' :: b = '[' :: (b' ++ [']']) ∧ PanicTag b' := by
      rintro ⟨b', h, -⟩; simp at h; subst h; exact absurd (hb ']' (by simp)).2 (by simp)
    simp only [this, iff_false]; exact notag (tryFrom_frag b hb)

/-- a string with a tag on which the parser panics -/
def Spec.HasPanicTag (ms : List Char) : Prop :=
  ∃ toks, Cut toks ∧ toks.flatten = ms ∧ ∃ b, PanicTag b ∧ '[' :: (b ++ [']']) ∈ toks

theorem hasPanicTag_iff (ms : Str) :
    HasPanicTag ms ↔ ∃ t ∈ slices ms, ∃ p, tryFrom t = .panic p := by
  constructor
  · rintro ⟨toks, hc, rfl, b, hb, hm⟩
    rw [slices_of_cut hc]
    refine ⟨_, hm, ?_⟩
    have hi : Item ('[' :: (b ++ [']'])) := by
      have := slices_items toks.flatten
      rw [slices_of_cut hc] at this
      exact this _ hm
    exact (C03_item_panics_iff _ hi).2 ⟨b, rfl, hb⟩
  · rintro ⟨t, ht, h⟩
    obtain ⟨b, rfl, hb⟩ := (C03_item_panics_iff t (slices_items ms t ht)).1 h
    exact ⟨slices ms, slices_cut ms, slices_flatten ms, b, hb, ht⟩

theorem normLoop_panic (l : List Str) (st : NormState) :
    (∃ p, normLoop st l = .panic p) ↔ ∃ t ∈ l, ∃ p, tryFrom t = .panic p := by
  induction l generalizing st with
  | nil => simp [normLoop]
  | cons s l ih =>
    simp only [normLoop, List.mem_cons, exists_eq_or_imp]
    cases h : tryFrom s with
    | panic p => simp
    | ok x => cases x <;> simp [ih]

theorem textSpansLoop_panic (l : List Str) :
    (∃ p, textSpansLoop l = .panic p) ↔ ∃ t ∈ l, ∃ p, tryFrom t = .panic p := by
  induction l with
  | nil => simp [textSpansLoop]
  | cons s l ih =>
    simp only [textSpansLoop, List.mem_cons, exists_eq_or_imp]
    rw [← ih]
    cases h : tryFrom s with
    | panic p => simp
    | ok x =>
      have hm : ∀ t : Str, (∃ p, (textSpansLoop l).map' (t :: ·) = .panic p) ↔ ∃ p, textSpansLoop l = .panic p := by
        intro t; cases textSpansLoop l <;> simp
      simp only [reduceCtorEq, exists_false, false_or]
      split <;> simp_all

/-- **C03** `normalize`, `text_spans` and `join_text` panic exactly on strings with a tag of one of
the shapes of `Spec.PanicTag`. -/
theorem C03_panics_iff (ms sep : Str) :
    ((∃ p, normalize ms = .panic p) ↔ HasPanicTag ms) ∧
    ((∃ p, textSpans ms = .panic p) ↔ HasPanicTag ms) ∧
    ((∃ p, joinText ms sep = .panic p) ↔ HasPanicTag ms) := by
  rw [hasPanicTag_iff]
  have h2 := textSpansLoop_panic (slices ms)
  refine ⟨?_, h2, ?_⟩
  · rw [← normLoop_panic (slices ms) .init]
    unfold normalize
    cases normLoop .init (slices ms) <;> simp
  · rw [← h2]
    unfold joinText textSpans
    cases textSpansLoop (slices ms) <;> simp

theorem isBlankLoop_panic (l : List Str) (h : ∃ p, isBlankLoop l = .panic p) :
    ∃ t ∈ l, ∃ p, tryFrom t = .panic p := by
  induction l with
  | nil => simp [isBlankLoop] at h
  | cons s l ih =>
    simp only [isBlankLoop] at h
    cases hs : tryFrom s with
    | panic p => exact ⟨s, by simp, p, hs⟩
    | ok x =>
      rw [hs] at h
      cases x with
      | error e => simp at h
      | ok v =>
        simp only at h
        split at h
        · obtain ⟨t, ht, hp⟩ := ih h; exact ⟨t, by simp [ht], hp⟩
        · simp at h

/-- **C03 (holds without the listed tags, in particular for ASCII strings)** `normalize`,
`is_blank`, `text_spans` and `join_text` return normally.
Missing for the full claim: it is false for strings with such a tag, see `C03_false`. -/
theorem C03_no_panic_partial (ms sep : Str) (h : ¬ HasPanicTag ms) :
    (∃ s, normalize ms = .ok s) ∧ (∃ b, isBlank ms = .ok b) ∧ (∃ ts, textSpans ms = .ok ts) ∧
    (∃ s, joinText ms sep = .ok s) := by
  obtain ⟨h1, h2, h3⟩ := C03_panics_iff ms sep
  have fin : ∀ {α : Type} (x : Res α), (¬ ∃ p, x = .panic p) → ∃ a, x = .ok a := by
    intro α x hx; cases x with
    | ok a => exact ⟨a, rfl⟩
    | panic p => exact absurd ⟨p, rfl⟩ hx
  refine ⟨fin _ (mt h1.1 h), fin _ ?_, fin _ (mt h2.1 h), fin _ (mt h3.1 h)⟩
  intro hb
  exact h ((hasPanicTag_iff ms).2 (isBlankLoop_panic _ hb))

/-- ASCII strings have no such tag -/
theorem C03_ascii (ms : Str) (h : ∀ c ∈ ms, c.toNat < 128) : ¬ HasPanicTag ms := by
  rintro ⟨toks, -, rfl, b, hb, hm⟩
  have : ∀ c ∈ b, c.toNat < 128 := by
    intro c hc
    exact h c (List.mem_flatten.2 ⟨_, hm, by simp [hc]⟩)
  cases hb with
  | flash n c r _ hc | mode n c r _ hc | direction n m c r _ _ hc | delay n m d c r _ _ _ hc =>
    have := this c (by simp); omega

/-- **C03 is false**: these valid UTF-8 strings make the functions panic. -/
theorem C03_false : (∃ p, normalize c!"[flé]" = .panic p) ∧ (∃ p, isBlank c!"[mvé]" = .panic p) ∧
    (∃ p, textSpans c!"A[mvcé1,1,1,X]" = .panic p) ∧ (∃ p, joinText c!"[mvl5é]" [] = .panic p) :=
  ⟨⟨_, rfl⟩, ⟨_, rfl⟩, ⟨_, rfl⟩, ⟨_, rfl⟩⟩

-- a string without such a tag, not ASCII
example : normalize c!"[fo3]É[nl]" = .ok c!"[fo3]É" := by decide +kernel

end Ntcip
