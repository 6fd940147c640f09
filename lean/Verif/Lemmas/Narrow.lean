import Verif.Spec.Narrow
import Verif.Lemmas.First
import Verif.Lemmas.CountedPieces
/-
Lemmas on narrower texts (C96): the checks of a page.
-/
namespace Ntcip
open Spec

theorem Spec.Pairwise2.mem_right {α β : Type} {R : α → β → Prop} {as : List α} {bs : List β} (h : Pairwise2 R as bs) {b}
    (hb : b ∈ bs) : ∃ a ∈ as, R a b := by
  induction h with
  | nil => simp at hb
  | cons hr _ ih =>
    rcases List.mem_cons.1 hb with rfl | hb
    · exact ⟨_, List.mem_cons_self .., hr⟩
    · obtain ⟨a, h1, h2⟩ := ih hb
      exact ⟨a, List.mem_cons_of_mem _ h1, h2⟩

theorem Spec.Pairwise2.append {α β : Type} {R : α → β → Prop} {as as' : List α} {bs bs' : List β} (h : Pairwise2 R as bs)
    (h' : Pairwise2 R as' bs') : Pairwise2 R (as ++ as') (bs ++ bs') := by
  induction h with
  | nil => exact h'
  | cons hr _ ih => exact .cons hr ih

theorem Spec.Pairwise2.map {α β α' β' : Type} {R : α → β → Prop} {S : α' → β' → Prop} {f : α → α'} {g : β → β'}
    (hf : ∀ a b, R a b → S (f a) (g b)) {as : List α} {bs : List β} (h : Pairwise2 R as bs) :
    Pairwise2 S (as.map f) (bs.map g) := by
  induction h with
  | nil => exact .nil
  | cons hr _ ih => exact .cons (hf _ _ hr) ih

theorem Spec.Pairwise2.get {α β : Type} {R : α → β → Prop} {as : List α} {bs : List β} (h : Pairwise2 R as bs) (i : Nat) {b}
    (hb : bs[i]? = some b) : ∃ a, as[i]? = some a ∧ R a b := by
  induction h generalizing i with
  | nil => simp at hb
  | cons hr _ ih =>
    cases i with
    | zero => simp only [List.getElem?_cons_zero, Option.some.injEq] at hb; subst hb; exact ⟨_, by simp, hr⟩
    | succ i => simpa using ih i (by simpa using hb)

theorem Spec.Pairwise2.filter {α β : Type} {R : α → β → Prop} {p : α → Bool} {q : β → Bool}
    (hpq : ∀ a b, R a b → p a = q b) {as : List α} {bs : List β} (h : Pairwise2 R as bs) :
    Pairwise2 R (as.filter p) (bs.filter q) := by
  induction h with
  | nil => exact .nil
  | cons hr _ ih =>
    rw [List.filter_cons, List.filter_cons, hpq _ _ hr]
    split
    · exact .cons hr ih
    · exact ih

theorem Spec.Pairwise2.split {α β : Type} {R : α → β → Prop} {as as' : List α} {bs : List β}
    (h : Pairwise2 R (as ++ as') bs) : ∃ b1 b2, bs = b1 ++ b2 ∧ Pairwise2 R as b1 ∧ Pairwise2 R as' b2 := by
  induction as generalizing bs with
  | nil => exact ⟨[], bs, rfl, .nil, h⟩
  | cons a as ih =>
    cases h with
    | cons hr h =>
      obtain ⟨b1, b2, rfl, h1, h2⟩ := ih h
      exact ⟨_ :: b1, b2, rfl, .cons hr h1, h2⟩

/-- the text of a span is replaced by a narrower one -/
def SpanNarrower (t : FontTable) (s s' : Span) : Prop := s.state = s'.state ∧ (s.str = s'.str ∨ Narrower t s.str s'.str)

/-- the span without its text -/
def bareSpan (s : Span) : Span := { s with str := [] }

theorem bareSpan_eq {t s s'} (h : SpanNarrower t s s') : bareSpan s = bareSpan s' := by
  unfold bareSpan; rw [h.1]

theorem bareSpans_eq {t ss ss'} (h : Pairwise2 (SpanNarrower t) ss ss') : ss.map bareSpan = ss'.map bareSpan := by
  induction h with
  | nil => rfl
  | cons h _ ih => simp only [List.map_cons, bareSpan_eq h, ih]

/-! ### heights do not depend on the texts -/

theorem samePage_bare (ss : List Span) (s : Span) : samePage (ss.map bareSpan) (bareSpan s) = (samePage ss s).map bareSpan := by
  unfold samePage; rw [List.filter_map]; rfl

theorem counted_bare (ss : List Span) : ∀ k, counted k (ss.map bareSpan) = (counted k ss).map bareSpan ∧
    lineCount k (ss.map bareSpan) = lineCount k ss := by
  induction ss with
  | nil => intro k; exact ⟨rfl, rfl⟩
  | cons s ss ih =>
    intro k
    simp only [List.map_cons, counted, lineCount]
    have e : (bareSpan s).state.lineNumber = s.state.lineNumber := rfl
    rw [e]
    split
    · rw [(ih k).1, (ih k).2]; exact ⟨rfl, rfl⟩
    · rw [(ih (k + 1)).1, (ih (k + 1)).2]; exact ⟨rfl, rfl⟩

theorem linesHeight_bare (full t) (ss : List Span) (n : Nat) :
    linesHeight full t (ss.map bareSpan) n = linesHeight full t ss n := by
  have ho : ∀ i, onLine (ss.map bareSpan) i = (onLine ss i).map bareSpan := by
    intro i; unfold onLine; rw [List.filter_map]; rfl
  have h1 : ∀ i, lineHeight t (ss.map bareSpan) i = lineHeight t ss i := by
    intro i; unfold lineHeight; rw [ho, List.map_map]; rfl
  have h2 : ∀ i, fontLineSpacing t (ss.map bareSpan) i = fontLineSpacing t ss i := by
    intro i; unfold fontLineSpacing; rw [ho, List.map_map]; rfl
  have h3 : ∀ i, tagLineSpacing (ss.map bareSpan) i = tagLineSpacing ss i := by
    intro i; unfold tagLineSpacing; rw [ho, List.findSome?_map]; rfl
  have h4 : ∀ i, lineSpace full t (ss.map bareSpan) i = lineSpace full t ss i := by
    intro i; unfold lineSpace; rw [h3, h2, h2]
  induction n with
  | zero => exact h1 0
  | succ n ih => simp only [linesHeight, ih, h4, h1]

theorem countedHeight_bare (d : Dms) (ss : List Span) (s : Span) (n : Nat) :
    countedHeight d (ss.map bareSpan) (bareSpan s) n = countedHeight d ss s n := by
  unfold countedHeight
  rw [samePage_bare, (counted_bare _ 0).1, (counted_bare _ 0).2, linesHeight_bare]

theorem countedHeight_narrow {d : Dms} {t ss ss' s s'} (h : Pairwise2 (SpanNarrower t) ss ss') (hs : SpanNarrower t s s')
    (n : Nat) : countedHeight d ss' s' n = countedHeight d ss s n := by
  rw [← countedHeight_bare, ← bareSpans_eq h, ← bareSpan_eq hs, countedHeight_bare]

theorem totalHeight_narrow {d : Dms} {t ss ss' s s'} (h : Pairwise2 (SpanNarrower t) ss ss') (hs : SpanNarrower t s s') :
    totalHeight d ss' s' = totalHeight d ss s := by
  unfold totalHeight
  rw [countedHeight_narrow h hs]
  congr 2
  rw [← (counted_bare (samePage ss' s') 0).2, ← samePage_bare, ← bareSpans_eq h, ← bareSpan_eq hs, samePage_bare,
    (counted_bare _ 0).2]

/-! ### widths -/

theorem glyphFault_none {d : Dms} {s : Span} (h : ∀ e, ¬ GlyphFault d s e) :
    ∃ f es, FontOf d.fontDefinition s f ∧ Defined f s.str es := by
  cases hf : s.state.font d.fontDefinition with
  | err e => exact absurd (.font (font_first hf)) (h e)
  | panic p => unfold RenderState.font at hf; split at hf <;> first | (split at hf <;> cases hf) | cases hf
  | ok f =>
    have hf := font_ok.1 hf
    have hall : ∀ c ∈ s.str, ∃ e, f.character c = some e := by
      intro c hc
      cases hx : f.character c with
      | some e => exact ⟨e, rfl⟩
      | none =>
        obtain ⟨pre, c', post, k1, k2, k3⟩ := first_missing hc (character_fault hx)
        exact absurd (.character hf k1 k2 k3) (h _)
    suffices key : ∀ str : Str, (∀ c ∈ str, ∃ e, f.character c = some e) → ∃ es, Defined f str es by
      obtain ⟨es, he⟩ := key _ hall
      exact ⟨f, es, hf, he⟩
    intro str
    induction str with
    | nil => intro _; exact ⟨[], rfl⟩
    | cons c str ih =>
      intro hall
      obtain ⟨e, he⟩ := hall c (List.mem_cons_self ..)
      obtain ⟨es, hes⟩ := ih fun c hc => hall c (List.mem_cons_of_mem _ hc)
      refine ⟨e :: es, ?_⟩
      unfold Defined at hes ⊢
      rw [List.map_cons, List.map_cons, he, hes]

theorem fontOf_narrow {t s s' f} (h : SpanNarrower t s s') : FontOf t s' f ↔ FontOf t s f := by
  unfold FontOf; rw [h.1]

theorem charSpacing_narrow {t s s'} (h : SpanNarrower t s s') (f : Font) : charSpacing s' f = charSpacing s f := by
  unfold charSpacing; rw [h.1]

theorem spanWidth_narrow {t s s' w} (h : SpanNarrower t s s') (hw : SpanWidth t s w) :
    ∃ w', SpanWidth t s' w' ∧ w' ≤ w := by
  obtain ⟨f, es, h1, h2, rfl⟩ := hw
  rcases h.2 with e | hn
  · exact ⟨_, ⟨f, es, (fontOf_narrow h).2 h1, e ▸ h2, rfl⟩, Nat.le_of_eq (by rw [charSpacing_narrow h])⟩
  · obtain ⟨es', h3, h4⟩ := hn f (List.mem_of_find?_eq_some h1.1) es h2
    exact ⟨_, ⟨f, es', (fontOf_narrow h).2 h1, h3, rfl⟩, by rw [charSpacing_narrow h]; exact h4 _⟩

theorem gap_narrow {t p p' s s' g} (hp : SpanNarrower t p p') (hs : SpanNarrower t s s') (hg : Gap t p s g) :
    Gap t p' s' g := by
  unfold Gap at hg ⊢
  rw [← hs.1]
  cases hc : s.state.charSpacing with
  | some c => rw [hc] at hg; exact hg
  | none =>
    rw [hc] at hg
    obtain ⟨fp, fs, h1, h2, h3⟩ := hg
    exact ⟨fp, fs, fun h => (fontOf_narrow hp).2 (h1 (by rw [hp.1]; exact h)), (fontOf_narrow hs).2 h2, by
      rw [charSpacing_narrow hp, charSpacing_narrow hs]; exact h3⟩

theorem lineWidth_narrow {t ss n} : ∀ {p p' ss'}, LineWidth t p ss n → (p = none ↔ p' = none) →
    (∀ a b, p = some a → p' = some b → SpanNarrower t a b) → Pairwise2 (SpanNarrower t) ss ss' →
    ∃ n', LineWidth t p' ss' n' ∧ n' ≤ n := by
  intro p p' ss' h
  induction h generalizing p' ss' with
  | nil => intro _ _ h; cases h; exact ⟨0, .nil, Nat.le_refl _⟩
  | first hw _ ih =>
    intro hn hpp h
    cases h with
    | cons hr h =>
      obtain ⟨w', k1, k2⟩ := spanWidth_narrow hr hw
      obtain ⟨n', k3, k4⟩ := ih (p' := some _) (by simp) (by rintro a b ⟨⟩ ⟨⟩; exact hr) h
      obtain rfl := hn.1 rfl
      exact ⟨_, .first k1 k3, by omega⟩
  | next hg hw _ ih =>
    intro hn hpp h
    cases h with
    | cons hr h =>
      obtain ⟨w', k1, k2⟩ := spanWidth_narrow hr hw
      obtain ⟨n', k3, k4⟩ := ih (p' := some _) (by simp) (by rintro a b ⟨⟩ ⟨⟩; exact hr) h
      cases p' with
      | none => simp at hn
      | some q => exact ⟨_, .next (gap_narrow (hpp _ _ rfl rfl) hr hg) k1 k3, by omega⟩

/-- spans with fonts and characters have a width -/
theorem lineWidth_some {t} {ss : List Span} (h : ∀ s ∈ ss, ∃ f es, FontOf t s f ∧ Defined f s.str es) :
    ∀ p, (∀ a, p = some a → ∃ f, FontOf t a f) → ∃ n, LineWidth t p ss n := by
  induction ss with
  | nil => intro p _; exact ⟨0, .nil⟩
  | cons s ss ih =>
    intro p hp
    obtain ⟨f, es, h1, h2⟩ := h s (List.mem_cons_self ..)
    obtain ⟨n, hn⟩ := ih (fun s hs => h s (List.mem_cons_of_mem _ hs)) (some s) (by rintro a ⟨⟩; exact ⟨f, h1⟩)
    cases p with
    | none => exact ⟨_, .first ⟨f, es, h1, h2, rfl⟩ hn⟩
    | some p =>
      obtain ⟨fp, hfp⟩ := hp p rfl
      obtain ⟨g, hg⟩ : ∃ g, Gap t p s g := by
        unfold Gap
        cases s.state.charSpacing with
        | some c => exact ⟨_, rfl⟩
        | none => exact ⟨_, fp, f, fun _ => hfp, h1, rfl⟩
      exact ⟨_, .next hg ⟨f, es, h1, h2, rfl⟩ hn⟩

/-! ### the checks -/

/-- no check gives an error -/
def Silent {ε : Type} (cs : List (ε → Prop)) : Prop := ∀ c ∈ cs, ∀ e, ¬ c e

theorem silent_append {ε : Type} {cs cs' : List (ε → Prop)} : Silent (cs ++ cs') ↔ Silent cs ∧ Silent cs' := by
  unfold Silent
  simp only [List.mem_append]
  exact ⟨fun h => ⟨fun c hc => h c (.inl hc), fun c hc => h c (.inr hc)⟩, fun h c hc => hc.elim (h.1 c) (h.2 c)⟩

theorem silent_cons {ε : Type} {c : ε → Prop} {cs : List (ε → Prop)} : Silent (c :: cs) ↔ (∀ e, ¬ c e) ∧ Silent cs := by
  unfold Silent; simp

theorem silent_nil {ε : Type} : Silent ([] : List (ε → Prop)) := by simp [Silent]

theorem silent_map {α ε : Type} {f : α → ε → Prop} {l : List α} : Silent (l.map f) ↔ ∀ a ∈ l, ∀ e, ¬ f a e := by
  simp [Silent]

theorem silent_flatMap {α ε : Type} {f : α → List (ε → Prop)} {l : List α} : Silent (l.flatMap f) ↔ ∀ a ∈ l, Silent (f a) := by
  simp only [Silent, List.mem_flatMap]
  exact ⟨fun h a ha c hc => h c ⟨a, ha, hc⟩, fun h c ⟨a, ha, hc⟩ => h a ha c hc⟩

theorem silent_iff {ε : Type} {cs : List (ε → Prop)} : Silent cs ↔ ∀ e, ¬ First cs e := by
  induction cs with
  | nil => simp only [silent_nil, true_iff]; intro e h; cases h
  | cons c cs ih =>
    rw [silent_cons, ih]
    constructor
    · rintro ⟨h1, h2⟩ e (h | ⟨_, h⟩)
      · exact h1 e h
      · exact h2 e h
    · intro h
      have hc : ∀ e, ¬ c e := fun e he => h e (.here he)
      exact ⟨hc, fun e he => h e (.later hc he)⟩

theorem sameLine_narrow {t ss ss' s s'} (h : Pairwise2 (SpanNarrower t) ss ss') (hs : SpanNarrower t s s') :
    Pairwise2 (SpanNarrower t) (sameLine ss s) (sameLine ss' s') := by
  unfold sameLine
  refine h.filter fun a b hab => ?_
  rw [hab.1, hs.1]

theorem samePage_narrow {t ss ss' s s'} (h : Pairwise2 (SpanNarrower t) ss ss') (hs : SpanNarrower t s s') :
    Pairwise2 (SpanNarrower t) (samePage ss s) (samePage ss' s') := by
  unfold samePage
  refine h.filter fun a b hab => ?_
  rw [hab.1, hs.1]

theorem errors_not {c : Check} {z} (h : ∀ e, ¬ c e) : ¬ errors c z := by
  cases z with
  | error e => exact h e
  | panic => exact id

theorem errors_silent {c : Check} (h : ∀ z, ¬ errors c z) (e) : ¬ c e := h (.error e)

theorem spanStops_narrow {d : Dms} {rect ss ss' s s'} (h : Pairwise2 (SpanNarrower d.fontDefinition) ss ss')
    (hs : SpanNarrower d.fontDefinition s s') (hk : Silent (spanStops d rect ss s)) : Silent (spanStops d rect ss' s') := by
  unfold spanStops spanChecks at hk ⊢
  simp only [List.map_append, List.map_cons, List.map_map, List.map_nil, List.append_assoc, List.cons_append, silent_append,
    silent_cons, silent_map, Function.comp_apply] at hk ⊢
  obtain ⟨k1, k2, k3, k4, _, k5, _⟩ := hk
  have hl := sameLine_narrow h hs
  have hp := samePage_narrow h hs
  have hdef : ∀ a ∈ sameLine ss s, ∃ f es, FontOf d.fontDefinition a f ∧ Defined f a.str es :=
    fun a ha => glyphFault_none fun e => errors_silent (k1 a ha) e
  refine ⟨fun b hb z => errors_not fun e => ?_, fun z => errors_not fun e => ?_, fun b hb z => errors_not fun e => ?_,
    fun z => errors_not fun e => ?_, silent_nil, fun z => ?_, silent_nil⟩
  · obtain ⟨a, ha, hab⟩ := hl.mem_right hb
    obtain ⟨f, es, h1, h2⟩ := hdef a ha
    rcases hab.2 with e1 | hn
    · exact glyph_noFault ((fontOf_narrow hab).2 h1) (e1 ▸ h2) e
    · obtain ⟨es', h3, _⟩ := hn f (List.mem_of_find?_eq_some h1.1) es h2
      exact glyph_noFault ((fontOf_narrow hab).2 h1) h3 e
  · rintro ⟨rfl, n', hn', hlt⟩
    obtain ⟨n, hn⟩ := lineWidth_some hdef none (by simp)
    obtain ⟨m, hm, hle⟩ := lineWidth_narrow hn (p' := none) (by simp) (by simp) hl
    have := lineWidth_unique hm hn'
    exact errors_silent k2 .textTooBig ⟨rfl, n, hn, by omega⟩
  · obtain ⟨a, ha, hab⟩ := hp.mem_right hb
    intro hf
    refine errors_silent (k3 a ha) e ?_
    cases hf with
    | missing hm => have := hm; rw [← hab.1] at this ⊢; exact .missing this
    | version h1 h2 h3 => rw [← hab.1] at h1 h2; exact .version h1 h2 h3
  · rintro ⟨rfl, hh⟩
    refine errors_silent k4 .textTooBig ⟨rfl, ?_⟩
    rw [totalHeight_narrow h hs] at hh
    exact hh
  · cases z with
    | error e => exact id
    | panic =>
      intro hz
      refine k5 .panic ?_
      obtain ⟨h1, f, h2, h3⟩ := hz
      rw [totalHeight_narrow h hs, countedHeight_narrow h hs] at h3
      exact ⟨by rw [hs.1]; exact h1, f, (fontOf_narrow hs).1 h2, by rw [hs.1]; exact h3⟩

theorem textStops_narrow {d : Dms} {rect ss ss'} (h : Pairwise2 (SpanNarrower d.fontDefinition) ss ss')
    (hk : Silent (textStops d rect ss)) : Silent (textStops d rect ss') := by
  unfold textStops at hk ⊢
  rw [silent_cons, silent_flatMap] at hk ⊢
  refine ⟨fun z => errors_not fun e => ?_, fun b hb => ?_⟩
  · rintro ⟨rfl, i, a', b', h1, h2, h3⟩
    obtain ⟨a, k1, k2⟩ := h.get i h1
    obtain ⟨b, k3, k4⟩ := h.get (i + 1) h2
    refine errors_silent hk.1 .tagConflict ⟨rfl, i, a, b, k1, k3, ?_⟩
    unfold Backwards at h3 ⊢
    rw [k2.1, k4.1]; exact h3
  · obtain ⟨a, ha, hab⟩ := h.mem_right hb
    exact spanStops_narrow h hab (hk.2 a ha)

/-! ### values -/

theorem reduced_or {t v v'} (h : Reduced t v v') : v' = v ∨ ∃ a b, v = .text a ∧ v' = .text b ∧ Narrower t a b := by
  cases h with
  | same => exact .inl rfl
  | text h => exact .inr ⟨_, _, rfl, rfl, h⟩

theorem pieces_narrow {d : Dms} {ft : FontTable} {rect} {vs vs'} (h : Pairwise2 (Reduced ft) vs vs') : ∀ t sp n b,
    Pairwise2 (SpanNarrower ft) ((pieces (signAttr d) t sp n b vs).map (spanOf d rect))
      ((pieces (signAttr d) t sp n b vs').map (spanOf d rect)) := by
  have refl : ∀ l : List Span, Pairwise2 (SpanNarrower ft) l l := by
    intro l
    induction l with
    | nil => exact .nil
    | cons a l ih => exact .cons ⟨rfl, .inl rfl⟩ ih
  induction h with
  | nil => intro t sp n b; exact .nil
  | cons hr _ ih =>
    intro t sp n b
    simp only [pieces, List.map_append]
    rcases reduced_or hr with rfl | ⟨x, y, rfl, rfl, hn⟩
    · exact (refl _).append (ih _ _ _ _)
    · refine Pairwise2.append ?_ (ih _ _ _ _)
      exact .cons ⟨rfl, .inr hn⟩ .nil

theorem foldl_reduced {d : Dms} {ft vs vs'} (h : Pairwise2 (Reduced ft) vs vs') : ∀ t,
    vs'.foldl (TextAttr.apply (signAttr d)) t = vs.foldl (TextAttr.apply (signAttr d)) t := by
  induction h with
  | nil => intro t; rfl
  | cons hr _ ih =>
    intro t
    rw [List.foldl_cons, List.foldl_cons, ih]
    rcases reduced_or hr with rfl | ⟨x, y, rfl, rfl, _⟩ <;> rfl

theorem spacing_reduced {ft vs vs'} (h : Pairwise2 (Reduced ft) vs vs') : ∀ sp,
    vs'.foldl spacingAfter sp = vs.foldl spacingAfter sp := by
  induction h with
  | nil => intro t; rfl
  | cons hr _ ih =>
    intro t
    rw [List.foldl_cons, List.foldl_cons, ih]
    rcases reduced_or hr with rfl | ⟨x, y, rfl, rfl, _⟩ <;> rfl

/-- a check of values that texts pass -/
theorem silent_reduced {ft : FontTable} {vs vs'} (h : Pairwise2 (Reduced ft) vs vs') {c : Value → StopCheck}
    (hc : ∀ s z, ¬ c (.text s) z) (hk : Silent (vs.map c)) : Silent (vs'.map c) := by
  rw [silent_map] at hk ⊢
  intro v hv
  obtain ⟨a, ha, hr⟩ := h.mem_right hv
  rcases reduced_or hr with rfl | ⟨x, y, rfl, rfl, _⟩
  · exact hk _ ha
  · exact hc y

theorem rectStops_narrow {d : Dms} {t sp rect ws ws' next} (h : Pairwise2 (Reduced d.fontDefinition) ws ws')
    (hk : Silent (rectStops d t sp rect ws next)) : Silent (rectStops d t sp rect ws' next) := by
  unfold rectStops at hk ⊢
  simp only [silent_append] at hk ⊢
  refine ⟨silent_reduced h ?_ hk.1, silent_reduced h ?_ hk.2.1, hk.2.2.1, textStops_narrow (pieces_narrow h t sp 0 true) hk.2.2.2⟩
  · intro s z
    cases z with
    | error e => rintro ⟨_, h⟩; cases h with | value h _ => cases h
    | panic =>
      rintro (h | ⟨r, c, h, _⟩)
      · cases h
      · cases h
  · intro s z
    exact errors_not fun e h => by cases h.1

/-- the text rectangles of two pages: the same ones, with narrower texts -/
def SectionsNarrower (ft : FontTable) : List (Rectangle × List Value) → List (Rectangle × List Value) → Prop :=
  Pairwise2 fun x y => x.1 = y.1 ∧ Pairwise2 (Reduced ft) x.2 y.2

theorem sections_narrow {ft vs vs'} (h : Pairwise2 (Reduced ft) vs vs') :
    Pairwise2 (Reduced ft) (sections vs).1 (sections vs').1 ∧ SectionsNarrower ft (sections vs).2 (sections vs').2 := by
  induction h with
  | nil => exact ⟨.nil, .nil⟩
  | @cons v v' vs vs' hr _ ih =>
    by_cases hv : ∃ r, v = .textRectangle r
    · obtain ⟨r, rfl⟩ := hv
      cases hr
      exact ⟨.nil, .cons ⟨rfl, ih.1⟩ ih.2⟩
    · have hv1 : ∀ r, v ≠ .textRectangle r := fun r h => hv ⟨r, h⟩
      have hv2 : ∀ r, v' ≠ .textRectangle r := by
        rcases reduced_or hr with rfl | ⟨x, y, rfl, rfl, _⟩
        · exact hv1
        · simp
      rw [sections_cons hv1, sections_cons hv2]
      exact ⟨.cons hr ih.1, ih.2⟩

theorem rectsStops_narrow {d : Dms} {more more'} (hm : SectionsNarrower d.fontDefinition more more') :
    ∀ {n t sp rect ws ws'}, Pairwise2 (Reduced d.fontDefinition) ws ws' →
    Silent (rectsStops d n t sp rect ws more) → Silent (rectsStops d n t sp rect ws' more') := by
  induction hm with
  | nil =>
    intro n t sp rect ws ws' h hk
    unfold rectsStops at hk ⊢
    rw [silent_append] at hk ⊢
    exact ⟨rectStops_narrow h hk.1, hk.2⟩
  | @cons x y more more' hr _ ih =>
    intro n t sp rect ws ws' h hk
    obtain ⟨r, us⟩ := x
    obtain ⟨r', us'⟩ := y
    obtain ⟨rfl, hu⟩ : r = r' ∧ _ := hr
    unfold rectsStops at hk ⊢
    rw [silent_append, silent_cons] at hk ⊢
    refine ⟨rectStops_narrow h hk.1, hk.2.1, ?_⟩
    rw [foldl_reduced h, spacing_reduced h]
    exact ih hu hk.2.2

theorem pageStops_narrow {d : Dms} {t vs vs'} (h : Pairwise2 (Reduced d.fontDefinition) vs vs')
    (hk : Silent (pageStops d t vs)) : Silent (pageStops d t vs') := by
  unfold pageStops at hk ⊢
  rw [silent_append] at hk ⊢
  refine ⟨silent_reduced h ?_ hk.1, rectsStops_narrow (sections_narrow h).2 (sections_narrow h).1 hk.2⟩
  intro s z
  exact errors_not fun e h => by cases h

end Ntcip
