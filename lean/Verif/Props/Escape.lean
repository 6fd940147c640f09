import Verif.Props.Normalize
/-
C13, C14: escaping and extracting text.
-/
namespace Ntcip
open Spec

/-! ### C13 -/

/-- write each bracket twice -/
def Spec.escape (t : List Char) : List Char :=
  t.flatMap fun c => if c = '[' then ['[', '['] else if c = ']' then [']', ']'] else [c]

theorem display_char (c : Char) : (Value.text [c]).display =
    if c = '[' then ['[', '['] else if c = ']' then [']', ']'] else [c] := by
  by_cases h1 : c = '['
  · subst h1; decide
  · by_cases h2 : c = ']'
    · subst h2; decide
    · rw [display_span (by simp [plain_cons, plain_nil, h1, h2]), if_neg h1, if_neg h2]

/-- **C13** for every text of valid characters, escaping and extracting gives the text back. -/
theorem C13_escape (t : Str) (ht : ∀ c ∈ t, 1 ≤ c.toNat ∧ c.toNat ≤ 0xFF) :
    joinText (escape t) [] = .ok t := by
  have hr : ∀ v ∈ t.map fun c => Value.text [c], InRange v := by
    intro v hv
    obtain ⟨c, hc, rfl⟩ := List.mem_map.1 hv
    by_cases h1 : c = '['
    · subst h1; exact .inl rfl
    · by_cases h2 : c = ']'
      · subst h2; exact .inr (.inl rfl)
      · exact .inr (.inr ⟨by simp, by simp [plain_cons, plain_nil, h1, h2], by simpa using ht c hc⟩)
  have hf : ∀ v ∈ t.map fun c => Value.text [c], Faithful v := by
    intro v hv
    refine ⟨hr v hv, ?_⟩
    obtain ⟨c, hc, rfl⟩ := List.mem_map.1 hv
    simp
  have e : escape t = (t.map fun c => Value.text [c]).flatMap Value.display := by
    rw [List.flatMap_map]
    simp only [display_char]; rfl
  have hv : validValues (escape t) = mergeT (t.map fun c => Value.text [c]) := by
    unfold validValues
    rw [e, slices_display hr, List.filterMap_map]
    exact reread_faithful (faithful_mergeT hf)
  have hp : ¬ HasPanicTag (escape t) := by
    rw [hasPanicTag_iff]
    rintro ⟨s, hs, p, hp⟩
    rw [e, slices_display hr] at hs
    obtain ⟨v, hv, rfl⟩ := List.mem_map.1 hs
    rw [(display_parse v (faithful_mergeT hf v hv)).2] at hp; cases hp
  obtain ⟨-, -, -, T, hT⟩ := C03_no_panic_partial (escape t) [] hp
  rw [hT, joinText_ok hT, hv, mergeT_flatMap textOf (fun a b _ _ => rfl), List.flatMap_map]
  simp [textOf]

example : escape c!"a[b]]c[" = c!"a[[b]]]]c[[" ∧ joinText c!"a[[b]]]]c[[" [] = .ok c!"a[b]]c[" := by
  decide +kernel

/-! ### C14 -/

/-- the text of an item: escapes, and spans of valid characters -/
inductive Spec.TextOf : List Char → List Char → Prop
  | escOpen : TextOf c!"[[" c!"["
  | escClose : TextOf c!"]]" c!"]"
  | span (t : List Char) : t ≠ [] → Plain t → (∀ c ∈ t, 1 ≤ c.toNat ∧ c.toNat ≤ 0xFF) → TextOf t t

theorem kind_body_not_text (k : Kind) (r t : Str) (hp : Plain r) : k.body r ≠ .ok (some (.text t)) := by
  intro h
  cases k <;> simp only [Kind.body] at h
  case fl =>
    unfold parseFlashOn parseFlashOff at h
    cases r with
    | nil => simp at h
    | cons c r =>
      simp only at h
      (repeat' split at h) <;> simp_all
      all_goals (revert h; (repeat' split) <;> simp)
  case mv =>
    have hm : ∀ r m, parseMovingTextMode r m ≠ .ok (some (.text t)) := by
      intro r m h
      unfold parseMovingTextMode at h
      split at h
      · simp only [Res.bind_eq_ok] at h
        obtain ⟨s, -, h⟩ := h
        revert h
        split <;> simp
      · simp at h
    have hl : ∀ r, parseMovingTextLinear r ≠ .ok (some (.text t)) := by
      intro r h
      unfold parseMovingTextLinear at h
      split at h
      · simp only [Res.bind_eq_ok] at h
        obtain ⟨s, -, s', -, h⟩ := h
        split at h <;> exact hm _ _ h
      · simp at h
    cases r with
    | nil => simp at h
    | cons c r =>
      simp only at h
      (repeat' split at h) <;> first | exact hm _ _ h | exact hl _ h | simp at h
  all_goals
    simp only [Res.ok.injEq] at h
    revert h
    try unfold JustificationLine.new JustificationPage.new
    (repeat' split) <;> simp

theorem tryFrom_text {t s : Str} (ht : Item t) : tryFrom t = .ok (.ok (.text s)) ↔ TextOf t s := by
  constructor
  · intro h
    rcases tryFrom_ok ht h with ⟨rfl, h'⟩ | ⟨rfl, h'⟩ | ⟨h', hn, hp, hv⟩ | ⟨k, pre, r, _, _, _, hp, hb⟩
    · cases h'; exact .escOpen
    · cases h'; exact .escClose
    · cases h'
      refine .span _ hn hp ?_
      intro c hc
      rw [List.any_eq_false] at hv
      have := hv c hc
      simp [validChar] at this
      omega
    · exact absurd hb (kind_body_not_text k r s hp)
  · intro h
    cases h with
    | escOpen => exact tryFrom_esc.1
    | escClose => exact tryFrom_esc.2
    | span _ hn hp hv =>
      rw [tryFrom_span t hn hp, if_neg]
      simp only [List.any_eq_true, not_exists, not_and, Bool.not_eq_true', Bool.not_eq_false]
      intro c hc
      exact (validChar_iff c).2 (hv c hc)

/-- the texts of the items of a cut string, in order -/
inductive Spec.Texts : List (List Char) → List (List Char) → Prop
  | nil : Texts [] []
  | text {t s toks ts} : TextOf t s → Texts toks ts → Texts (t :: toks) (s :: ts)
  | skip {t toks ts} : (∀ s, ¬ TextOf t s) → Texts toks ts → Texts (t :: toks) ts

theorem textSpansLoop_texts {l ts : List Str} (hl : ∀ t ∈ l, Item t) (h : textSpansLoop l = .ok ts) :
    Texts l ts := by
  induction l generalizing ts with
  | nil => simp [textSpansLoop] at h; subst h; exact .nil
  | cons t l ih =>
    have ih := fun {ts} => ih (ts := ts) fun s hs => hl s (by simp [hs])
    have ht := hl t (by simp)
    simp only [textSpansLoop] at h
    split at h
    · simp at h
    · rename_i s hs
      cases hr : textSpansLoop l with
      | panic p => rw [hr] at h; simp at h
      | ok ts' =>
        rw [hr] at h; simp at h; subst h
        exact .text ((tryFrom_text ht).1 hs) (ih hr)
    · rename_i x hx hs
      refine .skip ?_ (ih h)
      intro s h'
      rw [(tryFrom_text ht).2 h'] at hs
      cases hs
      exact hx s rfl

/-- **C14** however the string is cut (the cut is unique), `text_spans` yields exactly the texts of
its text items, in order. -/
theorem C14_exact (toks ts : List Str) (hc : Cut toks) (h : textSpans toks.flatten = .ok ts) :
    Texts toks ts := by
  unfold textSpans at h
  rw [slices_of_cut hc] at h
  refine textSpansLoop_texts ?_ h
  have := slices_items toks.flatten
  rwa [slices_of_cut hc] at this

theorem textSpansLoop_append (a b : List Str) :
    textSpansLoop (a ++ b) = (textSpansLoop a).bind fun x => (textSpansLoop b).map' (x ++ ·) := by
  induction a with
  | nil => simp only [List.nil_append, textSpansLoop]; cases textSpansLoop b <;> simp [Res.bind]
  | cons s a ih =>
    simp only [List.cons_append, textSpansLoop]
    split
    · rfl
    · rw [ih]
      cases textSpansLoop a <;> simp [Res.bind]
      cases textSpansLoop b <;> simp
    · exact ih

theorem slices_append {a b : Str} (h : ∀ t, (slices a).getLast? = some t → Follows t b.head?) :
    slices (a ++ b) = slices a ++ slices b := by
  induction a using slices_induction with
  | h0 => simp [slices_nil]
  | h1 t r ht hf ih =>
    rw [slices_item ht hf] at h ⊢
    rw [List.append_assoc, slices_item ht, ih]
    · rfl
    · intro s hs
      apply h s
      cases hr : slices r with
      | nil => rw [hr] at hs; simp at hs
      | cons x xs => rw [List.getLast?_cons_cons, ← hr]; exact hs
    · cases r with
      | nil => simp [slices_nil] at h; simpa using h
      | cons c r => simpa using hf

/-- **C14** a tag, valid or not, between any two strings changes nothing else (unless the first
ends with an unfinished `[`, which the tag would complete). -/
theorem C14_tag_ignored (a b x : Str) (hx : Plain x) (ha : (slices a).getLast? ≠ some ['['])
    (hpa : ¬ PanicTag x) (A B : List Str)
    (hA : textSpans a = .ok A) (hB : textSpans b = .ok B) :
    textSpans (a ++ ('[' :: (x ++ [']'])) ++ b) = .ok (A ++ B) := by
  have e1 : slices (('[' :: (x ++ [']'])) ++ b) = ('[' :: (x ++ [']'])) :: slices b := by
    apply slices_item (.tag x hx)
    refine ⟨fun _ hp => absurd (hp '[' (by simp)).1 (by simp), ?_, by simp⟩
    intro b' hb hp
    simp at hb; subst hb
    exact absurd (hp ']' (by simp)).2 (by simp)
  have e2 : slices (a ++ (('[' :: (x ++ [']'])) ++ b)) = slices a ++ (('[' :: (x ++ [']'])) :: slices b) := by
    rw [slices_append, e1]
    intro t ht
    refine ⟨fun _ _ c hc => ?_, ?_, ?_⟩
    · simp at hc; exact .inl hc.symm
    · rintro b' rfl hp c hc
      simp at hc
      refine ⟨?_, hc.symm⟩
      rintro rfl
      exact ha ht
    · rintro rfl; simp
  unfold textSpans at hA hB ⊢
  rw [List.append_assoc, e2, textSpansLoop_append, hA]
  simp only [Res.bind, textSpansLoop]
  have hnp : ∀ p, tryFrom ('[' :: (x ++ [']'])) ≠ .panic p := by
    intro p hp
    obtain ⟨b', hb, hpt⟩ := (C03_item_panics_iff _ (.tag x hx)).1 ⟨p, hp⟩
    simp at hb; subst hb
    exact hpa hpt
  have hnt : ∀ s, tryFrom ('[' :: (x ++ [']'])) ≠ .ok (.ok (.text s)) := by
    intro s hs
    have := (tryFrom_text (.tag x hx)).1 hs
    generalize hy : '[' :: (x ++ [']']) = y at this
    cases this with
    | escOpen => cases x <;> simp at hy
    | escClose => simp at hy
    | span _ _ hp => subst hy; exact absurd (hp '[' (by simp)).1 (by simp)
  split
  · rename_i p hp; exact absurd hp (hnp p)
  · rename_i s hs; exact absurd hs (hnt s)
  · rw [hB]; simp

example : textSpans c!"A[nl]B]C" = .ok [c!"A", c!"B", c!"C"] ∧
    textSpans c!"A[nl][bad[]B]C" ≠ .ok [] ∧
    textSpans c!"A[fo2]B]C" = .ok [c!"A", c!"B", c!"C"] := by decide +kernel

/-- why a final `[` is excluded: it would turn the tag into text -/
example : textSpans c!"A[" = .ok [c!"A"] ∧ textSpans c!"A[[nl]" = .ok [c!"A", c!"[", c!"nl"] := by
  decide +kernel

/-! ### C61 -/

/-- only the valid characters -/
def Spec.stripInvalid (t : List Char) : List Char :=
  t.filter fun c => decide (1 ≤ c.toNat ∧ c.toNat ≤ 0xFF)

theorem normalize_span (t : Str) (hn : t ≠ []) (hp : Plain t) :
    normalize t = .ok (if (∀ c ∈ t, 1 ≤ c.toNat ∧ c.toNat ≤ 0xFF) ∧ t.any (fun c => !isWhitespace c)
      then t else []) := by
  have hs : slices t = [t] := by
    have hf : Follows t ([] : Str).head? := by simp [Follows]
    have := slices_item (r := []) (.span t hn hp) hf
    rwa [List.append_nil, slices_nil] at this
  have hpan : ¬ HasPanicTag t := by
    rw [hasPanicTag_iff, hs]
    rintro ⟨s, h, p, h'⟩
    simp at h; subst h
    rw [tryFrom_span s hn hp] at h'
    split at h' <;> cases h'
  obtain ⟨⟨n, hn'⟩, -⟩ := C03_no_panic_partial t [] hpan
  rw [hn', normalize_eq hn']
  congr 1
  unfold kept validValues
  rw [hs]
  by_cases hv : ∀ c ∈ t, 1 ≤ c.toNat ∧ c.toNat ≤ 0xFF
  · have h1 : validOf t = some (.text t) :=
      validOf_eq_some.2 ((tryFrom_text (.span t hn hp)).2 (.span t hn hp hv))
    by_cases hb : t.all isWhitespace = true
    · have hb' : t.any (fun c => !isWhitespace c) = false := by
        simpa using hb
      simp [h1, dedup, NormState.update, trimB, Value.isBlank, hb, hb']
    · have hb' : t.any (fun c => !isWhitespace c) = true := by
        simpa using hb
      rw [if_pos ⟨hv, hb'⟩]
      simp [h1, dedup, NormState.update, trimB, Value.isBlank, hb, display_span hp]
  · have h1 : validOf t = none := by
      cases h : validOf t with
      | none => rfl
      | some v =>
        exfalso
        have h' := validOf_eq_some.1 h
        rw [tryFrom_span t hn hp] at h'
        split at h'
        · simp at h'
        · rename_i hany
          apply hv
          intro c hc
          simp only [List.any_eq_true, not_exists, not_and, Bool.not_eq_true', Bool.not_eq_false] at hany
          exact (validChar_iff c).1 (hany c hc)
    rw [if_neg (fun h => hv h.1)]
    simp [h1, dedup, trimB]

/-- **C61 (spans without invalid characters, and what happens to the others)** a text span is either
kept as it is (when all its characters are valid and one is visible), or dropped altogether.
Missing for the full claim: the documentation says that only the invalid characters are removed;
that is false, see `C61_false`. -/
theorem C61_span_partial (t : Str) (hn : t ≠ []) (hp : Plain t) :
    ((∀ c ∈ t, 1 ≤ c.toNat ∧ c.toNat ≤ 0xFF) ∧ (∃ c ∈ t, ¬ IsSpace c) → normalize t = .ok t) ∧
    (¬ ((∀ c ∈ t, 1 ≤ c.toNat ∧ c.toNat ≤ 0xFF) ∧ (∃ c ∈ t, ¬ IsSpace c)) → normalize t = .ok []) := by
  rw [normalize_span t hn hp]
  have key : ((∀ c ∈ t, 1 ≤ c.toNat ∧ c.toNat ≤ 0xFF) ∧ (∃ c ∈ t, ¬ IsSpace c)) ↔
      ((∀ c ∈ t, 1 ≤ c.toNat ∧ c.toNat ≤ 0xFF) ∧ t.any (fun c => !isWhitespace c) = true) := by
    constructor
    · rintro ⟨h1, c, hc, h2⟩
      refine ⟨h1, List.any_eq_true.2 ⟨c, hc, ?_⟩⟩
      have := mt (isWhitespace_iff c (h1 c hc).2).1 h2
      simpa using this
    · rintro ⟨h1, h2⟩
      obtain ⟨c, hc, h2⟩ := List.any_eq_true.1 h2
      refine ⟨h1, c, hc, fun h3 => ?_⟩
      have := (isWhitespace_iff c (h1 c hc).2).2 h3
      simp [this] at h2
  rw [key]
  constructor
  · intro h; rw [if_pos h]
  · intro h; rw [if_neg h]

/-- **C61 is false**: one invalid character removes the whole span, not only itself. -/
theorem C61_false : normalize c!"PRICE €5" = .ok [] ∧ stripInvalid c!"PRICE €5" = c!"PRICE 5" := by
  decide +kernel

end Ntcip
