import Verif.Props.Compose
/-
Property C65: fonts and graphics of a page exist and have the version ID the message asks for.
-/
namespace Ntcip
open Spec Tests

/-- the texts of the values, with the attributes in effect; `dflt` are the attributes of the sign -/
def Spec.texts (dflt : TextAttr) : TextAttr → List Value → List (TextAttr × Str)
  | _, [] => []
  | a, .text t :: vs => (a, t) :: Spec.texts dflt a vs
  | a, .hexadecimalCharacter c :: vs => (a, hexText c) :: Spec.texts dflt a vs
  | a, v :: vs => Spec.texts dflt (TextAttr.apply dflt a v) vs

/-- `f` is the font that text with the attributes asks for, and it has all characters of the text -/
def Spec.FontFor (d : Dms) (a : TextAttr) (text : Str) (f : Font) : Prop :=
  f ∈ d.fontDefinition ∧ f.number = a.fontNum ∧ (∀ id, a.fontVersionId = some id → id = f.versionId) ∧
  ∀ ch ∈ text, ∃ c ∈ f.characters, c.number.toNat = ch.toNat

theorem sections_split {vs r ws rest} (h : (sections vs).2 = (r, ws) :: rest) :
    ∃ vs', vs = (sections vs).1 ++ .textRectangle r :: vs' ∧ sections vs' = (ws, rest) := by
  induction vs with
  | nil => simp [sections] at h
  | cons v vs ih =>
    by_cases hv : ∀ r, v ≠ .textRectangle r
    · rw [sections_cons hv] at h ⊢
      obtain ⟨vs', h1, h2⟩ := ih h
      exact ⟨vs', by simpa using h1, h2⟩
    · simp only [ne_eq, Classical.not_forall, Classical.not_not] at hv
      obtain ⟨r', rfl⟩ := hv
      simp only [sections, List.cons.injEq, Prod.mk.injEq] at h
      obtain ⟨⟨rfl, rfl⟩, rfl⟩ := h
      exact ⟨vs, rfl, rfl⟩

theorem sections_whole {vs} (h : (sections vs).2 = []) : (sections vs).1 = vs := by
  induction vs with
  | nil => rfl
  | cons v vs ih =>
    by_cases hv : ∀ r, v ≠ .textRectangle r
    · rw [sections_cons hv] at h ⊢
      rw [ih h]
    · simp only [ne_eq, Classical.not_forall, Classical.not_not] at hv
      obtain ⟨r', rfl⟩ := hv
      simp [sections] at h

theorem texts_append {dflt a us vs} : Spec.texts dflt a (us ++ vs) =
    Spec.texts dflt a us ++ Spec.texts dflt (us.foldl (TextAttr.apply dflt) a) vs := by
  induction us generalizing a with
  | nil => rfl
  | cons v us ih => cases v <;> simp [Spec.texts, ih, TextAttr.apply]

theorem texts_pieces {dflt a sp line blank vs q} (h : q ∈ Spec.texts dflt a vs) :
    ∃ p ∈ pieces dflt a sp line blank vs, p.attr = q.1 ∧ p.str = q.2 := by
  induction vs generalizing a sp line blank with
  | nil => simp [Spec.texts] at h
  | cons v vs ih =>
    have skip : q ∈ Spec.texts dflt (TextAttr.apply dflt a v) vs →
        ∃ p ∈ pieces dflt a sp line blank (v :: vs), p.attr = q.1 ∧ p.str = q.2 := by
      intro h
      obtain ⟨p, hp, e⟩ := ih (sp := spacingAfter sp v) (line := lineAfter dflt a line v) (blank := blankAfter blank v) h
      exact ⟨p, by rw [pieces]; exact List.mem_append_right _ hp, e⟩
    cases v
    case text t =>
      rcases List.mem_cons.1 h with rfl | h
      · exact ⟨_, by rw [pieces, piece]; exact List.mem_append_left _ (List.mem_singleton.2 rfl), rfl, rfl⟩
      · exact skip h
    case hexadecimalCharacter t =>
      rcases List.mem_cons.1 h with rfl | h
      · exact ⟨_, by rw [pieces, piece]; exact List.mem_append_left _ (List.mem_singleton.2 rfl), rfl, rfl⟩
      · exact skip h
    all_goals exact skip h

theorem fontFor_of {d : Dms} {s : Span} {w} (h : SpanWidth d.fontDefinition s w) :
    ∃ f, FontFor d (textAttr s.state) s.str f := by
  obtain ⟨f, es, hf, hd, _⟩ := h
  obtain ⟨h1, h2⟩ := font_number hf
  refine ⟨f, h1, h2, hf.2, fun ch hch => ?_⟩
  have hm : f.character ch ∈ s.str.map f.character := List.mem_map.2 ⟨ch, hch, rfl⟩
  rw [show s.str.map f.character = es.map some from hd] at hm
  obtain ⟨c, _, hc⟩ := List.mem_map.1 hm
  have hc := hc.symm
  unfold Font.character at hc
  split at hc
  · have e := List.find?_some hc
    exact ⟨c, List.mem_of_find?_eq_some hc, by simpa using e⟩
  · simp at hc

theorem graphicOf_layered {d W H p vs i j o n pos} (h : Layered d W H p vs i j o) (hv : Value.graphic n pos ∈ vs) :
    ∃ g, GraphicOf d n pos g := by
  induction h with
  | nil => simp at hv
  | cons h1 _ ih =>
    rcases List.mem_cons.1 hv with rfl | hv
    · cases h1 with
      | graphic h => exact ⟨_, h⟩
      | offGraphic h => exact ⟨_, h⟩
      | other _ h => exact absurd rfl (h _ _)
    · exact ih hv

theorem composed_uses {d bg t sp rect us more a b} (h : Composed d bg t sp rect us more a b) {vs}
    (he : sections vs = (us, more)) :
    (∀ q ∈ Spec.texts (signAttr d) t vs, ∃ f, FontFor d q.1 q.2 f) ∧
    ∀ n pos, Value.graphic n pos ∈ vs → ∃ g, GraphicOf d n pos g := by
  have text : ∀ {t sp rect us a b}, TextDrawn d t sp rect us a b →
      ∀ q ∈ Spec.texts (signAttr d) t us, ∃ f, FontFor d q.1 q.2 f := by
    intro t sp rect us a b hT q hq
    obtain ⟨ps, e, _, _, hall, _⟩ := hT
    obtain ⟨p, hp, e1, e2⟩ := texts_pieces (sp := sp) (line := 0) (blank := true) hq
    rw [← e] at hp
    obtain ⟨s, hs, rfl⟩ := List.mem_map.1 hp
    obtain ⟨q, hq, rfl⟩ := List.mem_map.1 hs
    obtain ⟨_, w, _, hw, _⟩ := hall q hq
    rw [← e1, ← e2]
    exact fontFor_of hw
  have graphic : ∀ {p us a b}, GraphicsOn d p us a b → ∀ n pos, Value.graphic n pos ∈ us → ∃ g, GraphicOf d n pos g := by
    intro p us a b hG n pos hm
    obtain ⟨o, ho, _⟩ := hG.px 0 0
    exact graphicOf_layered ho hm
  induction h generalizing vs with
  | last hG hT =>
    have := sections_whole (vs := vs) (by rw [he])
    rw [he] at this
    dsimp only at this
    subst this
    exact ⟨text hT, graphic hG⟩
  | next hG hT _ ih =>
    obtain ⟨vs', h1, h2⟩ := sections_split (vs := vs) (by rw [he])
    rw [he] at h1
    dsimp only at h1
    obtain ⟨i1, i2⟩ := ih h2
    subst h1
    refine ⟨fun q hq => ?_, fun n pos hm => ?_⟩
    · rw [texts_append] at hq
      rcases List.mem_append.1 hq with hq | hq
      · exact text hT q hq
      · exact i1 q hq
    · simp only [List.mem_append, List.mem_cons, reduceCtorEq, false_or] at hm
      rcases hm with hm | hm
      · exact graphic hG n pos hm
      · exact i2 n pos hm

/-- **C65** an ON page is rendered only if, for each text on it, the font selected by the last `[fo]` tag is in the table
with the version ID given there (if any) and has all characters of the text, and, for each `[g]` tag, the graphic is in the
table with the version ID given (if any). -/
theorem C65_version_ids (d : Dms) (hf : FontsOk d.fontDefinition) (h0 : 1 ≤ d.multiCfg.defaultFont.toNat) (W H : Nat)
    (hg : GraphicsOk W H d.graphicDefinition) (ms : Str) (xs pg page pg')
    (h : Steps d (Pages.new d ms) xs pg) (hn : NoError xs) (hon : isOn pg.pageState = true)
    (hx : Pages.next d pg = .ok (some (.ok page), pg')) :
    ∃ us vs b, Consumed (slices ms) pg.values us ∧ TakePage pg.values vs pg'.values b ∧
      (∀ q ∈ Spec.texts (signAttr d) (us.foldl (TextAttr.apply (signAttr d)) (signAttr d)) vs, ∃ f, FontFor d q.1 q.2 f) ∧
      ∀ n pos, Value.graphic n pos ∈ vs → ∃ g, GraphicOf d n pos g := by
  obtain ⟨us, vs, b, h1, h2, h3⟩ := C66_page d hf h0 W H hg ms xs pg page pg' h hn hon hx
  exact ⟨us, vs, b, h1, h2, composed_uses h3 rfl⟩

/-- the errors of the results of `next` -/
def Tests.nextError (d : Dms) (ms : Str) : Option SyntaxError :=
  match Pages.next d (Pages.new d ms) with
  | .ok (some (.error e), _) => some e
  | _ => none

/-- a sign with a small font -/
def Tests.smallDms : Dms := { graphDms with fontDefinition := [⟨8, [], 2, 1, 1, [⟨65, 3, [0b01011100]⟩]⟩] }

-- the hypotheses of C65
example : FontsOk smallDms.fontDefinition := (C20_accepts_iff _).mp (by decide +kernel)
example : GraphicsOk 60 30 smallDms.graphicDefinition := (C21_accepts_iff _ 60 30).mp (by decide +kernel)
-- right and wrong version IDs, missing fonts, characters and graphics
example : (FontTable.font smallDms.fontDefinition 8).map Font.versionId = some 0xd5d8 := by decide +kernel
example : nextError smallDms c!"[fo8]A" = none := by decide +kernel
example : nextError smallDms c!"[fo8,d5d8]A" = none := by decide +kernel
example : nextError smallDms c!"[fo8,d5d9]A" = some .fontVersionID := by decide +kernel
example : nextError smallDms c!"[fo9]A" = some (.fontNotDefined 9) := by decide +kernel
example : nextError smallDms c!"AB" = some (.characterNotDefined 'B') := by decide +kernel
example : nextError smallDms c!"[g7,1,1,078d]" = none := by decide +kernel
example : nextError smallDms c!"[g7,1,1,078e]" = some .graphicID := by decide +kernel
example : nextError smallDms c!"[g8]" = some (.graphicNotDefined 8) := by decide +kernel

end Ntcip
