import Verif.Lemmas.Look
/-
Lemmas on other ways to write a message.
-/
namespace Ntcip
open Spec

theorem glue_cons {d : Dms} {p : Piece} {ps qs : List Piece} (h : glue d ps = glue d qs) :
    glue d (p :: ps) = glue d (p :: qs) := by
  rw [glue, glue, h]

theorem joinable_join {d : Dms} {p q r : Piece} (h : joinable d p q = true) :
    joinable d { p with str := p.str ++ q.str } r = joinable d q r ∧
    joinable d p { q with str := q.str ++ r.str } = true := by
  simp only [joinable, decide_eq_true_eq] at h
  obtain ⟨h1, h2, h3, h4, h5, h6⟩ := h
  constructor
  · simp [joinable, h1, h2, h3, h4, h5]
  · simp [joinable, h1, h2, h3, h4, h5] at h6 ⊢
    exact h6

theorem glue_join {d : Dms} {p q : Piece} {ps : List Piece} (h : joinable d p q = true) :
    glue d (p :: q :: ps) = glue d ({ p with str := p.str ++ q.str } :: ps) := by
  rw [glue, glue, glue.eq_def d (_ :: ps)]
  dsimp only
  cases hg : glue d ps with
  | nil => simp [h]
  | cons r rs =>
    dsimp only
    rw [(joinable_join h).1]
    by_cases hj : joinable d q r = true
    · rw [if_pos hj, if_pos hj]
      dsimp only
      rw [if_pos (joinable_join h).2]
      simp
    · rw [if_neg hj, if_neg hj]
      dsimp only
      rw [if_pos h]

theorem setsAttr_piece {v : Value} (h : setsAttr v) : (∀ t sp line blank, piece t sp line blank v = []) ∧
    (∀ sp, spacingAfter sp v = sp) ∧ (∀ b, blankAfter b v = b) ∧ v ≠ .newPage ∧ (∀ r, v ≠ .textRectangle r) := by
  cases v <;> simp [setsAttr] at h <;> simp [piece, spacingAfter, blankAfter]

theorem setsAttr_line {dflt t : TextAttr} {v : Value} (h : setsAttr v) (ha : TextAttr.apply dflt t v = t) :
    (∀ line, lineAfter dflt t line v = line) ∧ ∀ b, freshAfter dflt t b v = b := by
  cases v <;> simp [setsAttr] at h <;> simp [lineAfter, freshAfter]
  case justificationPage j =>
    have : j.getD dflt.justPage = t.justPage := by
      have := congrArg TextAttr.justPage ha
      exact this
    simp [this]

theorem rewrites_pieces {d : Dms} {t vs ws} (h : Rewrites d t vs ws) : ∀ {sp line blank},
    glue d (pieces (signAttr d) t sp line blank vs) = glue d (pieces (signAttr d) t sp line blank ws) := by
  induction h with
  | nil => intros; rfl
  | @keep t v vs ws _ ih =>
    intro sp line blank
    rw [pieces, pieces]
    have ih := @ih (spacingAfter sp v) (lineAfter (signAttr d) t line v) (blankAfter blank v)
    generalize hx : piece t sp line blank v = x
    clear hx
    induction x with
    | nil => exact ih
    | cons p x ihx => exact glue_cons ihx
  | @drop t v vs ws hv ha _ ih =>
    intro sp line blank
    rw [pieces, (setsAttr_piece hv).1, (setsAttr_piece hv).2.1, (setsAttr_piece hv).2.2.1, ha,
      (setsAttr_line hv ha).1]
    exact ih
  | @join t a b vs ws ha hb hc _ ih =>
    intro sp line blank
    have ih := @ih sp line false
    have e1 : pieces (signAttr d) t sp line blank (.text a :: vs) =
        ⟨t, sp, line, a⟩ :: pieces (signAttr d) t sp line false vs := rfl
    have e2 : pieces (signAttr d) t sp line false (.text b :: ws) =
        ⟨t, sp, line, b⟩ :: pieces (signAttr d) t sp line false ws := rfl
    have e3 : pieces (signAttr d) t sp line blank (.text (a ++ b) :: ws) =
        ⟨t, sp, line, a ++ b⟩ :: pieces (signAttr d) t sp line false ws := rfl
    rw [e1, e3, glue_cons ih, e2, glue_join]
    simp [joinable, ha, hb, hc]
  | @hex t c vs ws _ ih =>
    intro sp line blank
    exact glue_cons (@ih sp line false)
  | @unhex t c vs ws _ ih =>
    intro sp line blank
    exact glue_cons (@ih sp line false)

/-- a property of the attributes of all texts -/
theorem rewrites_attrs {d : Dms} {P : TextAttr → Prop} {t vs ws} (h : Rewrites d t vs ws) : ∀ {sp line blank},
    (∃ p ∈ pieces (signAttr d) t sp line blank vs, P p.attr) ↔
      ∃ p ∈ pieces (signAttr d) t sp line blank ws, P p.attr := by
  have cons : ∀ {p : Piece} {ps : List Piece}, (∃ q ∈ p :: ps, P q.attr) ↔ P p.attr ∨ ∃ q ∈ ps, P q.attr := by
    intro p ps; simp
  induction h with
  | nil => intros; rfl
  | @keep t v vs ws _ ih =>
    intro sp line blank
    rw [pieces, pieces]
    have ih := @ih (spacingAfter sp v) (lineAfter (signAttr d) t line v) (blankAfter blank v)
    simp only [List.mem_append, or_and_right, exists_or, ih]
  | @drop t v vs ws hv ha _ ih =>
    intro sp line blank
    rw [pieces, (setsAttr_piece hv).1, (setsAttr_piece hv).2.1, (setsAttr_piece hv).2.2.1, ha,
      (setsAttr_line hv ha).1]
    exact ih
  | @join t a b vs ws ha hb hc _ ih =>
    intro sp line blank
    have ih := @ih sp line false
    have e1 : pieces (signAttr d) t sp line blank (.text a :: vs) =
        ⟨t, sp, line, a⟩ :: pieces (signAttr d) t sp line false vs := rfl
    have e2 : pieces (signAttr d) t sp line false (.text b :: ws) =
        ⟨t, sp, line, b⟩ :: pieces (signAttr d) t sp line false ws := rfl
    have e3 : pieces (signAttr d) t sp line blank (.text (a ++ b) :: ws) =
        ⟨t, sp, line, a ++ b⟩ :: pieces (signAttr d) t sp line false ws := rfl
    rw [e2, cons] at ih
    rw [e1, e3, cons, cons, ih]
    exact ⟨fun h => h.elim .inl id, .inr⟩
  | @hex t c vs ws _ ih =>
    intro sp line blank
    have e1 : pieces (signAttr d) t sp line blank (.hexadecimalCharacter c :: vs) =
        ⟨t, sp, line, hexText c⟩ :: pieces (signAttr d) t sp line false vs := rfl
    have e2 : pieces (signAttr d) t sp line blank (.text (hexText c) :: ws) =
        ⟨t, sp, line, hexText c⟩ :: pieces (signAttr d) t sp line false ws := rfl
    rw [e1, e2, cons, cons, @ih sp line false]
  | @unhex t c vs ws _ ih =>
    intro sp line blank
    have e1 : pieces (signAttr d) t sp line blank (.hexadecimalCharacter c :: ws) =
        ⟨t, sp, line, hexText c⟩ :: pieces (signAttr d) t sp line false ws := rfl
    have e2 : pieces (signAttr d) t sp line blank (.text (hexText c) :: vs) =
        ⟨t, sp, line, hexText c⟩ :: pieces (signAttr d) t sp line false vs := rfl
    rw [e1, e2, cons, cons, @ih sp line false]

theorem apply_fg {d : Dms} {t : TextAttr} {p : Colors} (v : Value) (h : p.fg = t.foreground) :
    (p.apply d v).fg = (TextAttr.apply (signAttr d) t v).foreground := by
  cases v <;> first | exact h | skip
  case font f => rcases f with _ | ⟨n, i⟩ <;> exact h
  case colorForeground => rfl

theorem rewrites_paints {d : Dms} {t vs ws} (h : Rewrites d t vs ws) : ∀ {p : Colors}, p.fg = t.foreground →
    paints d p vs = paints d p ws := by
  induction h with
  | nil => intros; rfl
  | @keep t v vs ws _ ih =>
    intro p hp
    have ih := ih (apply_fg v hp)
    cases v <;> simp only [paints] <;> first | exact ih | skip
    case colorRectangle r c =>
      congr 1
    case graphic n pos =>
      congr 1
  | @drop t v vs ws hv ha _ ih =>
    intro p hp
    have e : p.apply d v = p := by
      have h1 := apply_fg (d := d) v hp
      rw [ha, ← hp] at h1
      cases v <;> simp [setsAttr] at hv <;> first | rfl | skip
      case colorForeground c =>
        obtain ⟨fg, bg⟩ := p
        simp only [Colors.apply, Colors.mk.injEq, and_true]
        exact h1
    have : paints d p (v :: vs) = paints d (p.apply d v) vs := by
      cases v <;> simp [setsAttr] at hv <;> rfl
    rw [this, e]
    exact ih hp
  | @join t a b vs ws ha hb hc _ ih =>
    intro p hp
    exact ih hp
  | hex _ ih => intro p hp; exact ih hp
  | unhex _ ih => intro p hp; exact ih hp

theorem rewrites_attr {d : Dms} {t vs ws} (h : Rewrites d t vs ws) :
    vs.foldl (TextAttr.apply (signAttr d)) t = ws.foldl (TextAttr.apply (signAttr d)) t := by
  induction h with
  | nil => rfl
  | keep _ ih => exact ih
  | drop _ ha _ ih => rw [List.foldl_cons, ha]; exact ih
  | join _ _ _ _ ih => exact ih
  | hex _ ih => exact ih
  | unhex _ ih => exact ih

theorem rewrites_fold {d : Dms} {α : Type} {f : α → Value → α} (h1 : ∀ x v, setsAttr v → f x v = x)
    (h2 : ∀ x s, f x (.text s) = x) (h3 : ∀ x c, f x (.hexadecimalCharacter c) = x) {t vs ws} (h : Rewrites d t vs ws) :
    ∀ x, vs.foldl f x = ws.foldl f x := by
  induction h with
  | nil => intro x; rfl
  | keep _ ih => intro x; exact ih _
  | drop hv _ _ ih => intro x; rw [List.foldl_cons, h1 _ _ hv]; exact ih x
  | join _ _ _ _ ih => intro x; have := ih x; simp only [List.foldl_cons, h2] at this ⊢; exact this
  | hex _ ih => intro x; simp only [List.foldl_cons, h2, h3]; exact ih x
  | unhex _ ih => intro x; simp only [List.foldl_cons, h2, h3]; exact ih x

theorem rewrites_length {d : Dms} {t vs ws} (h : Rewrites d t vs ws) : ws.length ≤ vs.length := by
  induction h <;> simp_all <;> omega

theorem rewrites_tidy {d : Dms} {t vs ws} (h : Rewrites d t vs ws) : ∀ {fr bl},
    Tidy (signAttr d) t fr bl vs → Tidy (signAttr d) t fr bl ws := by
  induction h with
  | nil => intro fr bl h; exact h
  | keep _ ih => intro fr bl h; exact ⟨h.1, ih h.2⟩
  | @drop t v vs ws hv ha _ ih =>
    intro fr bl h
    have := h.2
    rw [ha, (setsAttr_line hv ha).2, (setsAttr_piece hv).2.2.1] at this
    exact ih this
  | join _ _ _ _ ih => intro fr bl h; exact ⟨trivial, (ih (fr := false) (bl := false) h.2).2⟩
  | hex _ ih => intro fr bl h; exact ⟨trivial, ih h.2⟩
  | unhex _ ih => intro fr bl h; exact ⟨trivial, ih h.2⟩

/-- other ways to write text rectangles -/
inductive RewritesAll (d : Dms) : TextAttr → List (Rectangle × List Value) → List (Rectangle × List Value) → Prop
  | nil {t} : RewritesAll d t [] []
  | cons {t r vs ws rest rest'} : Rewrites d t vs ws →
      RewritesAll d (vs.foldl (TextAttr.apply (signAttr d)) t) rest rest' →
      RewritesAll d t ((r, vs) :: rest) ((r, ws) :: rest')

theorem sections_text (s : Str) (vs : List Value) :
    sections (.text s :: vs) = (.text s :: (sections vs).1, (sections vs).2) := rfl

theorem rewrites_sections {d : Dms} {t vs ws} (h : Rewrites d t vs ws) :
    Rewrites d t (sections vs).1 (sections ws).1 ∧
    RewritesAll d ((sections vs).1.foldl (TextAttr.apply (signAttr d)) t) (sections vs).2 (sections ws).2 := by
  induction h with
  | nil => exact ⟨.nil, .nil⟩
  | @keep t v vs ws _ ih =>
    by_cases hr : ∃ r, v = .textRectangle r
    · obtain ⟨r, rfl⟩ := hr
      exact ⟨.nil, .cons ih.1 ih.2⟩
    · have hr : ∀ r, v ≠ .textRectangle r := fun r e => hr ⟨r, e⟩
      rw [sections_cons hr, sections_cons hr]
      exact ⟨.keep ih.1, ih.2⟩
  | @drop t v vs ws hv ha _ ih =>
    rw [sections_cons (setsAttr_piece hv).2.2.2.2]
    refine ⟨.drop hv ha ih.1, ?_⟩
    dsimp only
    rw [List.foldl_cons, ha]
    exact ih.2
  | join ha hb hc _ ih => exact ⟨.join ha hb hc ih.1, ih.2⟩
  | hex _ ih => exact ⟨.hex ih.1, ih.2⟩
  | unhex _ ih => exact ⟨.unhex ih.1, ih.2⟩

/-- other ways to write pages -/
inductive RewritesPages (d : Dms) : TextAttr → List (List Value) → List (List Value) → Prop
  | nil {t} : RewritesPages d t [] []
  | cons {t vs ws rest rest'} : Rewrites d t vs ws →
      RewritesPages d (vs.foldl (TextAttr.apply (signAttr d)) t) rest rest' →
      RewritesPages d t (vs :: rest) (ws :: rest')

theorem splitPages_ne (vs : List Value) : splitPages vs ≠ [] := by
  cases vs with
  | nil => simp [splitPages]
  | cons v vs =>
    rw [splitPages]
    split
    · simp
    · split <;> simp

theorem splitPages_cons {v : Value} {vs : List Value} (hv : v ≠ .newPage) :
    ∃ p ps, splitPages vs = p :: ps ∧ splitPages (v :: vs) = (v :: p) :: ps := by
  rw [splitPages, if_neg hv]
  cases h : splitPages vs with
  | nil => exact absurd h (splitPages_ne vs)
  | cons p ps => exact ⟨p, ps, rfl, rfl⟩

theorem rewrites_pages {d : Dms} {t vs ws} (h : Rewrites d t vs ws) :
    RewritesPages d t (splitPages vs) (splitPages ws) := by
  induction h with
  | nil => exact .cons .nil .nil
  | @keep t v vs ws _ ih =>
    by_cases hv : v = .newPage
    · subst hv
      rw [splitPages, if_pos rfl, splitPages, if_pos rfl]
      exact .cons .nil ih
    · obtain ⟨p, ps, e1, e2⟩ := splitPages_cons (vs := vs) hv
      obtain ⟨q, qs, e3, e4⟩ := splitPages_cons (vs := ws) hv
      rw [e1, e3] at ih
      rw [e2, e4]
      cases ih with
      | cons h1 h2 => exact .cons (.keep h1) h2
  | @drop t v vs ws hv ha _ ih =>
    obtain ⟨p, ps, e1, e2⟩ := splitPages_cons (vs := vs) (setsAttr_piece hv).2.2.2.1
    rw [e2]
    rw [e1] at ih
    generalize splitPages ws = x at ih
    cases ih with
    | cons h1 h2 => exact .cons (.drop hv ha h1) (by rw [List.foldl_cons, ha]; exact h2)
  | @join t a b vs ws ha hb hc _ ih =>
    obtain ⟨p, ps, e1, e2⟩ := splitPages_cons (v := .text a) (vs := vs) (by simp)
    obtain ⟨q, qs, e3, e4⟩ := splitPages_cons (v := .text b) (vs := ws) (by simp)
    obtain ⟨q', qs', e5, e6⟩ := splitPages_cons (v := .text (a ++ b)) (vs := ws) (by simp)
    rw [e3] at e5
    cases e5
    rw [e1, e4] at ih
    rw [e2, e6]
    cases ih with
    | cons h1 h2 => exact .cons (.join ha hb hc h1) h2
  | @hex t c vs ws _ ih =>
    obtain ⟨p, ps, e1, e2⟩ := splitPages_cons (v := .hexadecimalCharacter c) (vs := vs) (by simp)
    obtain ⟨q, qs, e3, e4⟩ := splitPages_cons (v := .text (hexText c)) (vs := ws) (by simp)
    rw [e1, e3] at ih
    rw [e2, e4]
    cases ih with
    | cons h1 h2 => exact .cons (.hex h1) h2
  | @unhex t c vs ws _ ih =>
    obtain ⟨p, ps, e1, e2⟩ := splitPages_cons (v := .text (hexText c)) (vs := vs) (by simp)
    obtain ⟨q, qs, e3, e4⟩ := splitPages_cons (v := .hexadecimalCharacter c) (vs := ws) (by simp)
    rw [e1, e3] at ih
    rw [e2, e4]
    cases ih with
    | cons h1 h2 => exact .cons (.unhex h1) h2

theorem rewrites_spacing {d : Dms} {t vs ws} (h : Rewrites d t vs ws) (sp : Option UInt8) :
    vs.foldl spacingAfter sp = ws.foldl spacingAfter sp :=
  rewrites_fold (fun x _ h => (setsAttr_piece h).2.1 x) (fun _ _ => rfl) (fun _ _ => rfl) h sp

theorem rewrites_times {d : Dms} {t vs ws} (h : Rewrites d t vs ws) (dflt cur : UInt8 × UInt8) :
    pageTimes dflt cur vs = pageTimes dflt cur ws :=
  rewrites_fold (fun x v h => by cases v <;> simp [setsAttr] at h <;> rfl) (fun _ _ => rfl) (fun _ _ => rfl) h cur

theorem rewrites_background {d : Dms} {t vs ws} (h : Rewrites d t vs ws) (dflt cur : Color) :
    background dflt cur vs = background dflt cur ws :=
  rewrites_fold (fun x v h => by cases v <;> simp [setsAttr] at h <;> rfl) (fun _ _ => rfl) (fun _ _ => rfl) h cur

theorem rewrites_parts {d : Dms} {bg : Color} {t sp rect vs ws rest rest'} (h : Rewrites d t vs ws)
    (hr : RewritesAll d (vs.foldl (TextAttr.apply (signAttr d)) t) rest rest') :
    partsOf d bg t sp rect vs rest = partsOf d bg t sp rect ws rest' := by
  induction rest generalizing t sp rect vs ws rest' with
  | nil =>
    cases hr
    simp only [partsOf, rewrites_pieces h, rewrites_paints h (p := ⟨t.foreground, bg⟩) rfl]
  | cons q rest ih =>
    cases hr with
    | cons h1 h2 =>
      simp only [partsOf, rewrites_pieces h, rewrites_paints h (p := ⟨t.foreground, bg⟩) rfl]
      rw [ih h1 h2, rewrites_attr h, rewrites_spacing h]

theorem rewrites_looks {d : Dms} {t ps qs} (h : RewritesPages d t ps qs) : ∀ {p},
    looks d t p ps = looks d t p qs := by
  induction h with
  | nil => intros; rfl
  | @cons t vs ws rest rest' h1 _ ih =>
    intro p
    obtain ⟨h2, h3⟩ := rewrites_sections h1
    simp only [looks, rewrites_times h1, rewrites_background h1, rewrites_parts h2 h3]
    rw [ih, rewrites_attr h1]

/-- **looks** do not depend on the way of writing -/
theorem rewrites_look {d : Dms} {vs ws} (h : Rewrites d (signAttr d) vs ws) : lookOf d vs = lookOf d ws :=
  rewrites_looks (rewrites_pages h)

theorem rewrites_section {d : Dms} {t sp rect vs ws} (h : Rewrites d t vs ws)
    (hm : (∃ s ∈ layoutOf d t sp rect vs, s.state.justPage = .middle) → CellFonts d (layoutOf d t sp rect vs)) :
    (∃ s ∈ layoutOf d t sp rect ws, s.state.justPage = .middle) → CellFonts d (layoutOf d t sp rect ws) := by
  have key : ∀ {vs : List Value} {P : TextAttr → Prop}, (∃ s ∈ layoutOf d t sp rect vs, P (textAttr s.state)) ↔
      ∃ p ∈ pieces (signAttr d) t sp 0 true vs, P p.attr := by
    intro vs P
    constructor
    · rintro ⟨s, hs, h⟩
      obtain ⟨p, hp, rfl⟩ := List.mem_map.1 hs
      exact ⟨p, hp, h⟩
    · rintro ⟨p, hp, h⟩
      exact ⟨_, List.mem_map_of_mem hp, h⟩
  have all : ∀ {P : TextAttr → Prop}, (∃ s ∈ layoutOf d t sp rect vs, P (textAttr s.state)) ↔
      ∃ s ∈ layoutOf d t sp rect ws, P (textAttr s.state) := by
    intro P
    rw [key, key]
    exact rewrites_attrs h
  intro hmid
  have hc := hm ((all (P := fun a => a.justPage = .middle)).2 hmid)
  unfold CellFonts at hc ⊢
  rcases hc with hc | hc
  · exact .inl hc
  · refine .inr fun s hs f hf => ?_
    obtain ⟨s', hs', e⟩ := (all (P := fun a => a = textAttr s.state)).2 ⟨s, hs, rfl⟩
    exact hc s' hs' f ((fontOf_attr e).2 hf)

theorem rewrites_allSections {d : Dms} {rest rest'} : ∀ {t sp rect vs ws}, Rewrites d t vs ws →
    RewritesAll d (vs.foldl (TextAttr.apply (signAttr d)) t) rest rest' →
    AllSections d (fun t sp rect ws => Tidy (signAttr d) t true true ws ∧
      ((∃ s ∈ layoutOf d t sp rect ws, s.state.justPage = .middle) → CellFonts d (layoutOf d t sp rect ws)))
      t sp rect vs rest →
    AllSections d (fun t sp rect ws => Tidy (signAttr d) t true true ws ∧
      ((∃ s ∈ layoutOf d t sp rect ws, s.state.justPage = .middle) → CellFonts d (layoutOf d t sp rect ws)))
      t sp rect ws rest' := by
  induction rest generalizing rest' with
  | nil =>
    intro t sp rect vs ws h hr ha
    cases hr
    cases ha with
    | last h1 => exact .last ⟨rewrites_tidy h h1.1, rewrites_section h h1.2⟩
  | cons q rest ih =>
    intro t sp rect vs ws h hr ha
    cases hr with
    | cons k1 k2 =>
      cases ha with
      | next h1 h2 =>
        refine .next ⟨rewrites_tidy h h1.1, rewrites_section h h1.2⟩ ?_
        rw [← rewrites_attr h, ← rewrites_spacing h]
        exact ih k1 k2 h2

theorem rewrites_tidyPages {d : Dms} {t ps qs} (h : RewritesPages d t ps qs) (hp : TidyPages d t ps) :
    TidyPages d t qs := by
  induction h with
  | nil => trivial
  | @cons t vs ws rest rest' h1 _ ih =>
    obtain ⟨⟨k1, k2⟩, k3⟩ := hp
    obtain ⟨s1, s2⟩ := rewrites_sections h1
    refine ⟨⟨by have := rewrites_length h1; omega, rewrites_allSections s1 s2 k2⟩, ?_⟩
    rw [← rewrites_attr h1]
    exact ih k3

end Ntcip
