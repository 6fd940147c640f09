import Verif.Lemmas.Tighter
import Verif.Lemmas.Picture
import Verif.Lemmas.Quiet
import Verif.Lemmas.Trade
import Verif.Props.Account
import Verif.Props.Narrow
import Verif.Spec.Tint
/-
Lemmas for C135 and C136: colors do not move anything.
-/
namespace Ntcip
open Spec

variable {d : Dms}

variable {F G : Color → Color → Prop}

/-- the same color, or two that are exchanged -/
def Or2 (F : Color → Color → Prop) (c c' : Color) : Prop := c = c' ∨ F c c'

theorem dyed_or {v v'} (h : Dyed d F G v v') : v' = v ∨
    (∃ c c', v = .colorForeground c ∧ v' = .colorForeground c' ∧
      F (c.getD (.ofRgb (signForeground d))) (c'.getD (.ofRgb (signForeground d)))) ∨
    (∃ r c c', v = .colorRectangle r c ∧ v' = .colorRectangle r c' ∧ F c c') ∨
    (∃ c c', v = .colorBackground c ∧ v' = .colorBackground c' ∧
      G (c.getD (.ofRgb (signBackground d))) (c'.getD (.ofRgb (signBackground d)))) ∨
    ∃ c c', v = .pageBackground c ∧ v' = .pageBackground c' ∧
      G (c.getD (.ofRgb (signBackground d))) (c'.getD (.ofRgb (signBackground d))) := by
  cases h with
  | same => exact .inl rfl
  | text h => exact .inr (.inl ⟨_, _, rfl, rfl, h⟩)
  | rect h => exact .inr (.inr (.inl ⟨_, _, _, rfl, rfl, h⟩))
  | back h => exact .inr (.inr (.inr (.inl ⟨_, _, rfl, rfl, h⟩)))
  | page h => exact .inr (.inr (.inr (.inr ⟨_, _, rfl, rfl, h⟩)))

/-- the same attributes but for the color -/
structure AttrTint (F : Color → Color → Prop) (t t' : TextAttr) : Prop where
  rest : t' = { t with foreground := t'.foreground }
  color : Or2 F t.foreground t'.foreground

theorem apply_tint {t t' v v'} (h : AttrTint F t t') (hv : Dyed d F G v v') :
    AttrTint F ((signAttr d).apply t v) ((signAttr d).apply t' v') := by
  obtain ⟨h, k⟩ := h
  rcases dyed_or hv with rfl | ⟨c, c', rfl, rfl, e⟩ | ⟨r, c, c', rfl, rfl, e⟩ | ⟨c, c', rfl, rfl, e⟩ | ⟨c, c', rfl, rfl, e⟩
  · rw [h]
    cases v' with
    | font f => cases f <;> exact ⟨rfl, k⟩
    | colorForeground c => exact ⟨rfl, .inl rfl⟩
    | _ => exact ⟨rfl, k⟩
  · rw [h]
    exact ⟨rfl, .inr e⟩
  all_goals exact ⟨h, k⟩

theorem foldl_tint {vs vs'} (h : Pairwise2 (Dyed d F G) vs vs') : ∀ {t t'}, AttrTint F t t' →
    AttrTint F (vs.foldl (TextAttr.apply (signAttr d)) t) (vs'.foldl (TextAttr.apply (signAttr d)) t') := by
  induction h with
  | nil => intro t t' h; exact h
  | cons hr _ ih => intro t t' h; exact ih (apply_tint h hr)

theorem spacingAfter_tint {sp v v'} (hr : Dyed d F G v v') : spacingAfter sp v' = spacingAfter sp v := by
  rcases dyed_or hr with rfl | ⟨c, c', rfl, rfl, _⟩ | ⟨r, c, c', rfl, rfl, _⟩ | ⟨c, c', rfl, rfl, _⟩ | ⟨c, c', rfl, rfl, _⟩ <;> rfl

theorem spacing_tint {vs vs'} (h : Pairwise2 (Dyed d F G) vs vs') : ∀ {sp},
    vs'.foldl spacingAfter sp = vs.foldl spacingAfter sp := by
  induction h with
  | nil => intro sp; rfl
  | cons hr _ ih => intro sp; rw [List.foldl_cons, List.foldl_cons, spacingAfter_tint hr, ih]

/-! ### the checks -/

theorem piece_tint {t t' v v'} (ht : AttrTint F t t') (hr : Dyed d F G v v') (sp n b) :
    piece t' sp n b v' = (piece t sp n b v).map fun p => { p with attr := { p.attr with foreground := t'.foreground } } := by
  rw [ht.rest]
  rcases dyed_or hr with rfl | ⟨c, c', rfl, rfl, _⟩ | ⟨r, c, c', rfl, rfl, _⟩ | ⟨c, c', rfl, rfl, _⟩ | ⟨c, c', rfl, rfl, _⟩
  · cases v' with
    | newLine x => cases b <;> rfl
    | _ => rfl
  all_goals rfl

theorem lineAfter_tint {t t' v v'} (ht : AttrTint F t t') (hr : Dyed d F G v v') (n) :
    lineAfter (signAttr d) t' n v' = lineAfter (signAttr d) t n v := by
  rw [ht.rest]
  rcases dyed_or hr with rfl | ⟨c, c', rfl, rfl, _⟩ | ⟨r, c, c', rfl, rfl, _⟩ | ⟨c, c', rfl, rfl, _⟩ | ⟨c, c', rfl, rfl, _⟩
  · cases v' <;> rfl
  all_goals rfl

theorem numberAfter_tint {t t' v v'} (ht : AttrTint F t t') (hr : Dyed d F G v v') (n) :
    numberAfter (signAttr d) t' n v' = numberAfter (signAttr d) t n v := by
  rw [ht.rest]
  rcases dyed_or hr with rfl | ⟨c, c', rfl, rfl, _⟩ | ⟨r, c, c', rfl, rfl, _⟩ | ⟨c, c', rfl, rfl, _⟩ | ⟨c, c', rfl, rfl, _⟩
  · cases v' <;> rfl
  all_goals rfl

theorem blankAfter_tint {v v'} (hr : Dyed d F G v v') (b) : blankAfter b v' = blankAfter b v := by
  rcases dyed_or hr with rfl | ⟨c, c', rfl, rfl, _⟩ | ⟨r, c, c', rfl, rfl, _⟩ | ⟨c, c', rfl, rfl, _⟩ | ⟨c, c', rfl, rfl, _⟩ <;> rfl

theorem piece_attr (t : TextAttr) (sp n b v) : ∀ p ∈ piece t sp n b v, p.attr = t := by
  intro p hp
  unfold piece at hp
  split at hp
  · rw [List.mem_singleton] at hp; rw [hp]
  · rw [List.mem_singleton] at hp; rw [hp]
  · split at hp
    · rw [List.mem_singleton] at hp; rw [hp]
    · cases hp
  · cases hp

/-- the same piece but for its color -/
structure PieceTint (F : Color → Color → Prop) (p p' : Piece) : Prop where
  rest : p' = { p with attr := { p.attr with foreground := p'.attr.foreground } }
  color : Or2 F p.attr.foreground p'.attr.foreground

theorem pieces_tint {vs vs'} (h : Pairwise2 (Dyed d F G) vs vs') : ∀ {t t'} (sp n b), AttrTint F t t' →
    Pairwise2 (PieceTint F) (pieces (signAttr d) t sp n b vs) (pieces (signAttr d) t' sp n b vs') := by
  induction h with
  | nil => intro t t' sp n b _; exact .nil
  | @cons v v' vs vs' hr _ ih =>
    intro t t' sp n b ht
    simp only [pieces]
    rw [piece_tint ht hr, lineAfter_tint ht hr, blankAfter_tint hr, spacingAfter_tint hr]
    refine Pairwise2.append ?_ (ih _ _ _ (apply_tint ht hr))
    have hp := piece_attr t sp n b v
    revert hp
    generalize piece t sp n b v = l
    intro hp
    induction l with
    | nil => exact .nil
    | cons p ps ih =>
      refine .cons ⟨rfl, ?_⟩ (ih fun q hq => hp q (List.mem_cons_of_mem _ hq))
      rw [hp p (List.mem_cons_self ..)]
      exact ht.color

theorem numbers_tint {vs vs'} (h : Pairwise2 (Dyed d F G) vs vs') : ∀ {t t'} (n b), AttrTint F t t' →
    numbers (signAttr d) t' n b vs' = numbers (signAttr d) t n b vs := by
  induction h with
  | nil => intro t t' n b _; rfl
  | @cons v v' vs vs' hr _ ih =>
    intro t t' n b ht
    simp only [numbers]
    rw [piece_tint ht hr, numberAfter_tint ht hr, blankAfter_tint hr, ih _ _ (apply_tint ht hr)]
    simp only [List.map_map, Function.comp_def]

theorem spans_tint {rect : Rectangle} {ps ps'} (h : Pairwise2 (PieceTint F) ps ps') :
    Pairwise2 SpanTighter (ps.map (spanOf d rect)) (ps'.map (spanOf d rect)) := by
  induction h with
  | nil => exact .nil
  | @cons p p' _ _ hr _ ih =>
    refine .cons ?_ ih
    rw [hr.rest]
    exact ⟨smaller_self _, smaller_self _, rfl, rfl, rfl, rfl, rfl, rfl⟩

theorem silent_dyed {vs vs'} (h : Pairwise2 (Dyed d F G) vs vs') {c : Value → StopCheck}
    (hc : ∀ v v', Dyed d F G v v' → v' ∈ vs' → (∀ z, ¬ c v z) → ∀ z, ¬ c v' z)
    (hk : Silent (vs.map c)) : Silent (vs'.map c) := by
  rw [silent_map] at hk ⊢
  intro v hv
  obtain ⟨a, ha, hr⟩ := h.mem_right hv
  exact hc a v hr hv (hk a ha)

/-- painting stops at a color only when the sign does not have it, or for the place of a color rectangle -/
theorem paint_tint {v v'} (hr : Dyed d F G v v') (hok : ColorOk d.multiCfg.colorScheme v') (h : ∀ z, ¬ paintStop d v z) :
    ∀ z, ¬ paintStop d v' z := by
  have plain : ∀ {v}, ValueOk d v → (∀ n pos, v ≠ .graphic n pos) → unimplemented v = false → (∀ r c, v = .colorRectangle r c → RectFits r) →
      ∀ z, ¬ paintStop d v z := by
    intro v h1 h2 h3 h4 z
    cases z with
    | error e =>
      rintro ⟨_, h⟩
      cases h with
      | value _ h => exact h h1
      | missing _ => exact h2 _ _ rfl
      | version _ _ => exact h2 _ _ rfl
      | big _ _ _ => exact h2 _ _ rfl
    | panic =>
      rintro (h | ⟨r, c, h, _, h'⟩)
      · rw [h3] at h; cases h
      · exact h' (h4 r c h)
  rcases dyed_or hr with rfl | ⟨c, c', rfl, rfl, _⟩ | ⟨r, c, c', rfl, rfl, _⟩ | ⟨c, c', rfl, rfl, _⟩ | ⟨c, c', rfl, rfl, _⟩
  · exact h
  · exact plain ⟨hok, rfl⟩ (by simp) rfl (by simp)
  · have hp : ¬ PaintPanic d (.colorRectangle r c) := fun k => h .panic k
    have hv : ValueOk d (.colorRectangle r c) := Classical.byContradiction fun k => h (.error _) ⟨hp, .value rfl k⟩
    refine plain ⟨hok, hv.2⟩ (by simp) rfl ?_
    rintro r' c'' ⟨⟩
    exact Classical.byContradiction fun k => hp (.inr ⟨_, _, rfl, hv.1, k⟩)
  · exact plain ⟨hok, rfl⟩ (by simp) rfl (by simp)
  · exact plain ⟨hok, rfl⟩ (by simp) rfl (by simp)

theorem layout_tint {v v'} (hr : Dyed d F G v v') (hok : ColorOk d.multiCfg.colorScheme v')
    (h : ∀ z, ¬ errors (LayoutFault d v) z) : ∀ z, ¬ errors (LayoutFault d v') z := by
  rcases dyed_or hr with rfl | ⟨c, c', rfl, rfl, _⟩ | ⟨r, c, c', rfl, rfl, _⟩ | ⟨c, c', rfl, rfl, _⟩ | ⟨c, c', rfl, rfl, _⟩
  · exact h
  · exact fun z => errors_not fun e hf => hf.2.1 ⟨hok, rfl⟩
  · exact fun z => errors_not fun e hf => by cases hf.1
  · exact fun z => errors_not fun e hf => by cases hf.1
  · exact fun z => errors_not fun e hf => by cases hf.1

theorem backgroundFault_tint {v v'} (hr : Dyed d F G v v') (hok : ColorOk d.multiCfg.colorScheme v')
    (h : ∀ z, ¬ errors (BackgroundFault d v) z) : ∀ z, ¬ errors (BackgroundFault d v') z := by
  rcases dyed_or hr with rfl | ⟨c, c', rfl, rfl, _⟩ | ⟨r, c, c', rfl, rfl, _⟩ | ⟨c, c', rfl, rfl, _⟩ | ⟨c, c', rfl, rfl, _⟩
  · exact h
  · exact fun z => errors_not fun e hf => by cases hf
  · exact fun z => errors_not fun e hf => by cases hf
  · exact fun z => errors_not fun e hf => by cases hf with | cb h => exact h hok
  · exact fun z => errors_not fun e hf => by cases hf with | pb h => exact h hok

theorem rectStops_tint {t t' sp rect ws ws' next} (h : Pairwise2 (Dyed d F G) ws ws') (ht : AttrTint F t t')
    (hc : ∀ v ∈ ws', ColorOk d.multiCfg.colorScheme v)
    (hk : Silent (rectStops d t sp rect ws next)) : Silent (rectStops d t' sp rect ws' next) := by
  unfold rectStops at hk ⊢
  simp only [silent_append] at hk ⊢
  exact ⟨silent_dyed h (fun v v' hr hm => paint_tint hr (hc v' hm)) hk.1,
    silent_dyed h (fun v v' hr hm => layout_tint hr (hc v' hm)) hk.2.1, hk.2.2.1,
    textStops_tighter (spans_tint (pieces_tint h sp 0 true ht)) hk.2.2.2⟩

/-- the text rectangles of two pages: the same ones, with other colors -/
def SectionsTint (d : Dms) (F G : Color → Color → Prop) : List (Rectangle × List Value) → List (Rectangle × List Value) → Prop :=
  Pairwise2 fun x y => x.1 = y.1 ∧ Pairwise2 (Dyed d F G) x.2 y.2

theorem sections_tint {vs vs'} (h : Pairwise2 (Dyed d F G) vs vs') :
    Pairwise2 (Dyed d F G) (sections vs).1 (sections vs').1 ∧ SectionsTint d F G (sections vs).2 (sections vs').2 := by
  induction h with
  | nil => exact ⟨.nil, .nil⟩
  | @cons v v' vs vs' hr _ ih =>
    by_cases hv : ∃ r, v = .textRectangle r
    · obtain ⟨r, rfl⟩ := hv
      cases hr
      exact ⟨.nil, .cons ⟨rfl, ih.1⟩ ih.2⟩
    · have hv1 : ∀ r, v ≠ .textRectangle r := fun r h => hv ⟨r, h⟩
      have hv2 : ∀ r, v' ≠ .textRectangle r := by
        rcases dyed_or hr with rfl | ⟨c, c', rfl, rfl, _⟩ | ⟨r, c, c', rfl, rfl, _⟩ | ⟨c, c', rfl, rfl, _⟩ | ⟨c, c', rfl, rfl, _⟩
        · exact hv1
        all_goals simp
      rw [sections_cons hv1, sections_cons hv2]
      exact ⟨.cons hr ih.1, ih.2⟩

theorem rectsStops_tint {more more'} (hm : SectionsTint d F G more more') :
    ∀ {n t t' sp rect ws ws'}, Pairwise2 (Dyed d F G) ws ws' → AttrTint F t t' →
    (∀ v ∈ ws', ColorOk d.multiCfg.colorScheme v) → (∀ q ∈ more', ∀ v ∈ q.2, ColorOk d.multiCfg.colorScheme v) →
    Silent (rectsStops d n t sp rect ws more) → Silent (rectsStops d n t' sp rect ws' more') := by
  induction hm with
  | nil =>
    intro n t t' sp rect ws ws' h ht hc _ hk
    unfold rectsStops at hk ⊢
    rw [silent_append] at hk ⊢
    exact ⟨rectStops_tint h ht hc hk.1, hk.2⟩
  | @cons x y more more' hr _ ih =>
    intro n t t' sp rect ws ws' h ht hc hq hk
    obtain ⟨r, us⟩ := x
    obtain ⟨r', us'⟩ := y
    obtain ⟨rfl, hu⟩ : r = r' ∧ _ := hr
    unfold rectsStops at hk ⊢
    rw [silent_append, silent_cons] at hk ⊢
    refine ⟨rectStops_tint h ht hc hk.1, hk.2.1, ?_⟩
    rw [spacing_tint h]
    exact ih hu (foldl_tint h ht) (hq _ (List.mem_cons_self ..)) (fun q hm => hq q (List.mem_cons_of_mem _ hm)) hk.2.2

theorem pageStops_tint {t t' vs vs'} (h : Pairwise2 (Dyed d F G) vs vs') (ht : AttrTint F t t')
    (hc : ∀ v ∈ vs', ColorOk d.multiCfg.colorScheme v)
    (hk : Silent (pageStops d t vs)) : Silent (pageStops d t' vs') := by
  unfold pageStops at hk ⊢
  rw [silent_append] at hk ⊢
  have hs := sections_all hc
  exact ⟨silent_dyed h (fun v v' hr hm => backgroundFault_tint hr (hc v' hm)) hk.1,
    rectsStops_tint (sections_tint h).2 (sections_tint h).1 ht hs.1 hs.2 hk.2⟩

/-- pages with other colors -/
theorem splitPages_tint {vs vs'} (h : Pairwise2 (Dyed d F G) vs vs') :
    Pairwise2 (Pairwise2 (Dyed d F G)) (splitPages vs) (splitPages vs') := by
  induction h with
  | nil => exact .cons .nil .nil
  | @cons v v' vs vs' hr _ ih =>
    by_cases hn : v = .newPage
    · subst hn
      cases hr
      rw [splitPages, if_pos rfl, splitPages, if_pos rfl]
      exact .cons .nil ih
    · have hn' : v' ≠ .newPage := by
        rcases dyed_or hr with rfl | ⟨c, c', rfl, rfl, _⟩ | ⟨r, c, c', rfl, rfl, _⟩ | ⟨c, c', rfl, rfl, _⟩ | ⟨c, c', rfl, rfl, _⟩
        · exact hn
        all_goals simp
      obtain ⟨p, ps, e1, e2⟩ := splitPages_cons (vs := vs) hn
      obtain ⟨p', ps', e1', e2'⟩ := splitPages_cons (vs := vs') hn'
      rw [e1, e1'] at ih
      rw [e2, e2']
      cases ih with
      | cons k1 k2 => exact .cons (.cons hr k1) k2

theorem pagesQuiet_tint {ps ps'} (h : Pairwise2 (Pairwise2 (Dyed d F G)) ps ps') : ∀ {t t'}, AttrTint F t t' →
    (∀ p ∈ ps', ∀ v ∈ p, ColorOk d.multiCfg.colorScheme v) →
    PagesQuiet d t ps → PagesQuiet d t' ps' := by
  induction h with
  | nil => intro t t' _ _ _; trivial
  | cons hr _ ih =>
    intro t t' ht hc hk
    exact ⟨pageStops_tint hr ht (hc _ (List.mem_cons_self ..)) hk.1,
      ih (foldl_tint hr ht) (fun p hp => hc p (List.mem_cons_of_mem _ hp)) hk.2⟩

/-! ### the places of texts -/

/-- the text without its color -/
def untint (s : Span) : Span := { s with state := { s.state with colorCtx := ⟨.color24Bit, (0, 0, 0), .rgb 0 0 0, (0, 0, 0), .rgb 0 0 0⟩ } }

theorem sameLine_untint (ss : List Span) (s : Span) : sameLine (ss.map untint) (untint s) = (sameLine ss s).map untint := by
  unfold sameLine
  rw [List.filter_map]
  rfl

theorem samePage_untint (ss : List Span) (s : Span) : samePage (ss.map untint) (untint s) = (samePage ss s).map untint := by
  unfold samePage
  rw [List.filter_map]
  rfl

theorem onLine_untint (ss : List Span) (i : Nat) : onLine (ss.map untint) i = (onLine ss i).map untint := by
  unfold onLine
  rw [List.filter_map]
  rfl

theorem lineWidth_untint {t p ss n} (h : LineWidth t p ss n) : LineWidth t (p.map untint) (ss.map untint) n := by
  induction h with
  | nil => exact .nil
  | first h1 _ ih => exact .first h1 ih
  | next h1 h2 _ ih => exact .next h1 h2 ih

theorem beforeAt_untint {t own p ss n} (h : BeforeAt t own p ss n) : BeforeAt t own (p.map untint) (ss.map untint) n := by
  induction h with
  | nil => exact .nil
  | first h1 _ ih => exact .first h1 ih
  | next h1 h2 _ ih => exact .next h1 h2 ih

theorem counted_untint {ss : List Span} : ∀ k, counted k (ss.map untint) = (counted k ss).map untint ∧
    lineCount k (ss.map untint) = lineCount k ss := by
  induction ss with
  | nil => intro k; exact ⟨rfl, rfl⟩
  | cons s ss ih =>
    intro k
    simp only [List.map_cons, counted, lineCount]
    rw [show (untint s).state.lineNumber = s.state.lineNumber from rfl]
    split
    · exact ⟨by rw [(ih k).1]; rfl, (ih k).2⟩
    · exact ⟨by rw [(ih (k + 1)).1]; rfl, (ih (k + 1)).2⟩

theorem linesHeight_untint {full t} {ss : List Span} (n : Nat) : linesHeight full t (ss.map untint) n = linesHeight full t ss n := by
  have h1 : ∀ i, lineHeight t (ss.map untint) i = lineHeight t ss i := by
    intro i; unfold lineHeight; rw [onLine_untint, List.map_map]; rfl
  have h2 : ∀ i, fontLineSpacing t (ss.map untint) i = fontLineSpacing t ss i := by
    intro i; unfold fontLineSpacing; rw [onLine_untint, List.map_map]; rfl
  have h3 : ∀ i, tagLineSpacing (ss.map untint) i = tagLineSpacing ss i := by
    intro i; unfold tagLineSpacing; rw [onLine_untint, List.findSome?_map]; rfl
  have h4 : ∀ i, lineSpace full t (ss.map untint) i = lineSpace full t ss i := by
    intro i; unfold lineSpace; rw [h2, h2, h3]
  induction n with
  | zero => exact h1 0
  | succ n ih => simp only [linesHeight, h1, h4, ih]

theorem countedHeight_untint (ss : List Span) (s : Span) (n : Nat) :
    countedHeight d (ss.map untint) (untint s) n = countedHeight d ss s n := by
  unfold countedHeight
  rw [samePage_untint, (counted_untint 0).1, (counted_untint 0).2, linesHeight_untint]

theorem totalHeight_untint (ss : List Span) (s : Span) : totalHeight d (ss.map untint) (untint s) = totalHeight d ss s := by
  unfold totalHeight
  rw [countedHeight_untint, samePage_untint, (counted_untint 0).2]

theorem exactX_untint {ss s x} (h : ExactX d ss s x) : ExactX d (ss.map untint) (untint s) x := by
  obtain ⟨n, total, h1, h2, h3, h4⟩ := h
  refine ⟨n, total, ?_, ?_, h3, h4⟩
  · rw [sameLine_untint]; exact beforeAt_untint h1
  · rw [sameLine_untint]; exact lineWidth_untint h2

theorem exactY_untint {ss s y} (h : ExactY d ss s y) : ExactY d (ss.map untint) (untint s) y := by
  obtain ⟨f, h1, h2, h3⟩ := h
  refine ⟨f, h1, ?_, ?_⟩
  · rw [totalHeight_untint]; exact h2
  · rw [totalHeight_untint, countedHeight_untint]; exact h3

theorem pieceOf_untint {s s' : Span} (h : PieceTint F (pieceOf s) (pieceOf s')) : pieceOf (untint s) = pieceOf (untint s') := by
  have h := h.rest
  unfold pieceOf at h
  simp only [Piece.mk.injEq, textAttr, TextAttr.mk.injEq, and_true] at h
  unfold pieceOf untint textAttr
  simp [h]

theorem lightsAt_untint {t s x y i j} : LightsAt t (untint s) x y i j ↔ LightsAt t s x y i j := Iff.rfl

/-! ### pixels -/

/-- pixels of texts at the same places, in two colors -/
theorem textPx_tint {t : FontTable} {R : Rgb → Rgb → Prop} (hR : ∀ c c', Or2 F c c' → R (foregroundRgb d c) (foregroundRgb d c'))
    {ps : List (Span × Nat × Nat)} : ∀ {ps' : List (Span × Nat × Nat)} {i j c c'},
    Pairwise2 (PieceTint F) (ps.map fun p => pieceOf p.1) (ps'.map fun p => pieceOf p.1) → ps.map Prod.snd = ps'.map Prod.snd →
    (∀ p ∈ ps, p.1.state.colorCtx.foregroundRgb = foregroundRgb d (pieceOf p.1).attr.foreground) →
    (∀ p ∈ ps', p.1.state.colorCtx.foregroundRgb = foregroundRgb d (pieceOf p.1).attr.foreground) → R c c' →
    R (textPx t ps i j c) (textPx t ps' i j c') := by
  induction ps with
  | nil => intro ps' i j c c' h _ _ _ hc; cases ps' with | nil => exact hc | cons _ _ => cases h
  | cons p ps ih =>
    intro ps' i j c c' h he h1 h2 hc
    cases ps' with
    | nil => cases h
    | cons p' ps' =>
      cases h with
      | cons e1 h =>
      simp only [List.map_cons, List.cons.injEq] at he
      obtain ⟨e2, he⟩ := he
      unfold textPx
      simp only [List.foldl_cons]
      refine ih h he (fun q hq => h1 q (List.mem_cons_of_mem _ hq)) (fun q hq => h2 q (List.mem_cons_of_mem _ hq)) ?_
      have e1' := pieceOf_untint e1
      have e : LightsAt t p.1 p.2.1 p.2.2 i j ↔ LightsAt t p'.1 p'.2.1 p'.2.2 i j := by
        rw [← e2]
        exact ⟨fun h => lightsAt_untint.1 (lightsAt_pieces e1' (lightsAt_untint.2 h)),
          fun h => lightsAt_untint.1 (lightsAt_pieces e1'.symm (lightsAt_untint.2 h))⟩
      by_cases hl : LightsAt t p.1 p.2.1 p.2.2 i j
      · rw [if_pos hl, if_pos (e.1 hl), h1 p (List.mem_cons_self ..), h2 p' (List.mem_cons_self ..)]
        exact hR _ _ e1.color
      · rw [if_neg hl, if_neg fun k => hl (e.2 k)]
        exact hc

/-- what may differ at a pixel -/
def TintAt (d : Dms) (F G : Color → Color → Prop) (V : List Value) (i j : Nat) (x y : Rgb) : Prop :=
  x = y ∨ (∃ c c', F c c' ∧ x = foregroundRgb d c ∧ y = foregroundRgb d c') ∨
    (∃ c c', G c c' ∧ x = backgroundRgb d c ∧ y = backgroundRgb d c') ∨
    (OnBits d V i j ∧ d.multiCfg.colorScheme ≠ .color24Bit)

theorem tintAt_fore {V i j c c'} (h : Or2 F c c') : TintAt d F G V i j (foregroundRgb d c) (foregroundRgb d c') := by
  rcases h with rfl | h
  · exact .inl rfl
  · exact .inr (.inl ⟨c, c', h, rfl, rfl⟩)

theorem tintAt_back {V i j c c'} (h : Or2 G c c') : TintAt d F G V i j (backgroundRgb d c) (backgroundRgb d c') := by
  rcases h with rfl | h
  · exact .inl rfl
  · exact .inr (.inr (.inl ⟨c, c', h, rfl, rfl⟩))

theorem textDrawn_tint {V t t' sp rect vs vs' a a' b b'} (h : Pairwise2 (Dyed d F G) vs vs') (ht : AttrTint F t t')
    (hd : TextDrawn d t sp rect vs a b) (hd' : TextDrawn d t' sp rect vs' a' b')
    (hpx : ∀ i j, TintAt d F G V i j (a.px i j) (a'.px i j)) : ∀ i j, TintAt d F G V i j (b.px i j) (b'.px i j) := by
  obtain ⟨ps, p1, ⟨p2, p3⟩, p4, _, p5, _⟩ := hd
  obtain ⟨qs, q1, ⟨q2, q3⟩, q4, _, q5, _⟩ := hd'
  have hpieces := pieces_tint h sp 0 true ht
  rw [← p1, ← q1] at hpieces
  have hun : ∀ {ss ss' : List Span}, Pairwise2 (PieceTint F) (ss.map pieceOf) (ss'.map pieceOf) →
      (ss.map untint).map pieceOf = (ss'.map untint).map pieceOf := by
    intro ss
    induction ss with
    | nil => intro ss' h; cases ss' with | nil => rfl | cons _ _ => cases h
    | cons s ss ih =>
      intro ss' h
      cases ss' with
      | nil => cases h
      | cons s' ss' =>
        cases h with
        | cons k1 k2 =>
          simp only [List.map_cons, List.cons.injEq]
          exact ⟨pieceOf_untint k1, ih k2⟩
  have hnum : ∀ ss : List Span, (ss.map untint).map (·.state.spanNumber) = ss.map (·.state.spanNumber) := by
    intro ss; rw [List.map_map]; rfl
  have hk : ((ps.map Prod.fst).map untint).map placeKey = ((qs.map Prod.fst).map untint).map placeKey := by
    refine map_pair (hun hpieces) ?_
    rw [hnum, hnum, p2, q2, numbers_tint h _ _ ht]
  have hlen : ps.length = qs.length := by simpa using congrArg List.length hk
  have hsame : ps.map Prod.snd = qs.map Prod.snd := by
    refine List.ext_getElem (by simpa using hlen) fun k k1 k2 => ?_
    simp only [List.length_map] at k1 k2
    simp only [List.getElem_map]
    have mp : ps[k] ∈ ps := List.getElem_mem k1
    have mq : qs[k] ∈ qs := List.getElem_mem k2
    have e : placeKey (untint ps[k].1) = placeKey (untint qs[k].1) := by
      have := congrArg (·[k]?) hk
      simpa [k1, k2] using this
    have er : (untint ps[k].1).state.textRectangle = (untint qs[k].1).state.textRectangle := by
      show ps[k].1.state.textRectangle = qs[k].1.state.textRectangle
      rw [(p4 _ (List.mem_map_of_mem mp)).1, (q4 _ (List.mem_map_of_mem mq)).1]
    have ex := exactX_unique (exactX_same hk e er (exactX_untint (p3 _ mp).1)) (exactX_untint (q3 _ mq).1)
    have ey := exactY_unique (exactY_same hk e er (exactY_untint (p3 _ mp).2)) (exactY_untint (q3 _ mq).2)
    exact Prod.ext ex ey
  rw [textAt_iff] at p5 q5
  subst p5 q5
  intro i j
  refine textPx_tint (d := d) (F := F) (R := TintAt d F G V i j) (fun c c' h => tintAt_fore h) ?_ hsame
    (fun p hp => (p4 _ (List.mem_map_of_mem hp)).2.1) (fun p hp => (q4 _ (List.mem_map_of_mem hp)).2.1) (hpx i j)
  rw [List.map_map, List.map_map] at hpieces
  exact hpieces

/-! ### drawings -/

/-- on signs with 24-bit colors, all colors that are told have a value -/
def HasValue (d : Dms) (c : Color) : Prop := d.multiCfg.colorScheme = .color24Bit →
  ∃ x, colorValue d.multiCfg.colorScheme (signForeground d) (signBackground d) c = some x

theorem admits_value {c} (h : Admits d.multiCfg.colorScheme c) : HasValue d c := by
  intro e
  rw [e] at h ⊢
  cases c with
  | rgb r g b => exact ⟨_, rfl⟩
  | legacy v =>
    have : v.toNat < classicColors.length := by show v.toNat < 10; exact Nat.lt_succ_of_le h
    exact ⟨_, List.getElem?_eq_getElem this⟩

theorem ofRgb_hasValue (x : Rgb) : HasValue d (.ofRgb x) := by
  intro e
  rw [e]
  exact ⟨_, rfl⟩

theorem getD_value {x c} (h : ∀ a, c = some a → Admits d.multiCfg.colorScheme a) : HasValue d (c.getD (.ofRgb x)) := by
  cases c with
  | none => exact ofRgb_hasValue x
  | some a => exact admits_value (h a rfl)

/-- the colors of two pages for graphics of one bit -/
structure ColorsTint (d : Dms) (F G : Color → Color → Prop) (p p' : Colors) : Prop where
  fg : Or2 F p.fg p'.fg
  bg : Or2 G p.bg p'.bg
  fgv : HasValue d p.fg
  fgv' : HasValue d p'.fg
  bgv : HasValue d p.bg
  bgv' : HasValue d p'.bg

theorem apply_colors {p p' : Colors} {v v'} (h : ColorsTint d F G p p') (hr : Dyed d F G v v')
    (hc : ColorOk d.multiCfg.colorScheme v) (hc' : ColorOk d.multiCfg.colorScheme v') :
    ColorsTint d F G (p.apply d v) (p'.apply d v') := by
  rcases dyed_or hr with rfl | ⟨c, c', rfl, rfl, e⟩ | ⟨r, c, c', rfl, rfl, e⟩ | ⟨c, c', rfl, rfl, e⟩ | ⟨c, c', rfl, rfl, e⟩
  · cases v' with
    | colorForeground c =>
      exact ⟨.inl rfl, h.bg, getD_value fun a k => hc a k, getD_value fun a k => hc a k, h.bgv, h.bgv'⟩
    | colorBackground c =>
      exact ⟨h.fg, .inl rfl, h.fgv, h.fgv', getD_value fun a k => hc a k, getD_value fun a k => hc a k⟩
    | _ => exact h
  · exact ⟨.inr e, h.bg, getD_value fun a k => hc a k, getD_value fun a k => hc' a k, h.bgv, h.bgv'⟩
  · exact h
  · exact ⟨h.fg, .inr e, h.fgv, h.fgv', getD_value fun a k => hc a k, getD_value fun a k => hc' a k⟩
  · exact h

/-- both unpainted, or painted in colors that may differ -/
def OptTint (d : Dms) (F G : Color → Color → Prop) (V : List Value) (i j : Nat) (o o' : Option Rgb) : Prop :=
  o = o' ∨ ∃ x y, o = some x ∧ o' = some y ∧ TintAt d F G V i j x y

theorem fore_value {c x} (h : colorValue d.multiCfg.colorScheme (signForeground d) (signBackground d) c = some x) :
    x = foregroundRgb d c := by unfold foregroundRgb; rw [h]; rfl

theorem back_value {c x} (h : colorValue d.multiCfg.colorScheme (signForeground d) (signBackground d) c = some x) :
    x = backgroundRgb d c := by unfold backgroundRgb; rw [h]; rfl

theorem layer_tint {W H V v v' i j o o'} {p p' : Colors} (hu : UniqueNumbers (fun g : Graphic => g.number.toNat) d.graphicDefinition)
    (h0 : ∀ pos, v ≠ .graphic 0 pos) (hr : Dyed d F G v v') (hp : ColorsTint d F G p p') (hv : v ∈ V)
    (hn : ¬ (OnBits d V i j ∧ d.multiCfg.colorScheme ≠ .color24Bit))
    (h : Layer d W H p v i j o) (h' : Layer d W H p' v' i j o') : OptTint d F G V i j o o' := by
  rcases dyed_or hr with rfl | ⟨c, c', rfl, rfl, _⟩ | ⟨r, c, c', rfl, rfl, e⟩ | ⟨c, c', rfl, rfl, _⟩ | ⟨c, c', rfl, rfl, _⟩
  · cases h' with
    | rect k => exact .inl (layer_unique hu h0 h (.rect k))
    | offRect k => exact .inl (layer_unique hu h0 h (.offRect k))
    | @graphic n pos g c _ _ k1 k2 k3 =>
      have e := layer_unique hu h0 h (.graphic k1 k2 k3)
      rw [e]
      by_cases ht : g.transparentColor = some c
      · rw [if_pos ht, if_pos ht]; exact .inl rfl
      rw [if_neg ht, if_neg ht]
      by_cases hb : g.gtype = .monochrome1Bit
      · have h24 : d.multiCfg.colorScheme = .color24Bit := by
          by_cases k : d.multiCfg.colorScheme = .color24Bit
          · exact k
          · exact absurd ⟨⟨n, pos, g, hv, k1, hb, k2⟩, k⟩ hn
        cases c with
        | rgb _ _ _ => exact .inl rfl
        | legacy x =>
          unfold shown
          simp only [if_pos hb]
          by_cases hx : x = 1
          · rw [if_pos hx, if_pos hx]
            obtain ⟨y, e1⟩ := hp.fgv h24
            obtain ⟨y', e2⟩ := hp.fgv' h24
            refine .inr ⟨y, y', e1, e2, ?_⟩
            rw [fore_value e1, fore_value e2]
            exact tintAt_fore hp.fg
          · rw [if_neg hx, if_neg hx]
            obtain ⟨y, e1⟩ := hp.bgv h24
            obtain ⟨y', e2⟩ := hp.bgv' h24
            refine .inr ⟨y, y', e1, e2, ?_⟩
            rw [back_value e1, back_value e2]
            exact tintAt_back hp.bg
      · refine .inl ?_
        unfold shown
        cases c with
        | rgb _ _ _ => rfl
        | legacy x => simp only [if_neg hb]; rfl
    | offGraphic k1 k2 => exact .inl (layer_unique hu h0 h (.offGraphic k1 k2))
    | other k1 k2 => exact .inl (layer_unique hu h0 h (.other k1 k2))
  · cases h; cases h'; exact .inl rfl
  · cases h with
    | rect k =>
      cases h' with
      | rect k' => exact .inr ⟨_, _, rfl, rfl, tintAt_fore (.inr e)⟩
      | offRect k' => exact absurd k k'
      | other k' => exact absurd rfl (k' _ _)
    | offRect k =>
      cases h' with
      | rect k' => exact absurd k' k
      | offRect k' => exact .inl rfl
      | other k' => exact absurd rfl (k' _ _)
    | other k => exact absurd rfl (k _ _)
  · cases h; cases h'; exact .inl rfl
  · cases h; cases h'; exact .inl rfl

theorem layered_tint {W H V i j} (hu : UniqueNumbers (fun g : Graphic => g.number.toNat) d.graphicDefinition)
    (hn : ¬ (OnBits d V i j ∧ d.multiCfg.colorScheme ≠ .color24Bit)) {vs vs'} (hr : Pairwise2 (Dyed d F G) vs vs') :
    ∀ {p p' : Colors} {o o'},
    (∀ pos, Value.graphic 0 pos ∉ vs) → (∀ v ∈ vs, v ∈ V) → (∀ v ∈ vs, ColorOk d.multiCfg.colorScheme v) →
    (∀ v ∈ vs', ColorOk d.multiCfg.colorScheme v) → ColorsTint d F G p p' → Layered d W H p vs i j o →
    Layered d W H p' vs' i j o' → OptTint d F G V i j o o' := by
  induction hr with
  | nil => intro p p' o o' _ _ _ _ _ h h'; cases h; cases h'; exact .inl rfl
  | @cons v v' vs vs' hr _ ih =>
    intro p p' o o' h0 hv hc hc' hp h h'
    cases h with
    | cons h1 h2 =>
      cases h' with
      | cons h1' h2' =>
        have e1 := layer_tint hu (fun pos e => h0 pos (by simp [e])) hr hp (hv v (List.mem_cons_self ..)) hn h1 h1'
        have e2 := ih (fun pos hm => h0 pos (List.mem_cons_of_mem _ hm)) (fun w hw => hv w (List.mem_cons_of_mem _ hw))
          (fun w hw => hc w (List.mem_cons_of_mem _ hw)) (fun w hw => hc' w (List.mem_cons_of_mem _ hw))
          (apply_colors hp hr (hc v (List.mem_cons_self ..)) (hc' v' (List.mem_cons_self ..))) h2 h2'
        rcases e2 with rfl | ⟨x, y, rfl, rfl, e2⟩
        · rename_i _ u _
          cases u with
          | none => exact e1
          | some x => exact .inl rfl
        · exact .inr ⟨x, y, rfl, rfl, e2⟩

theorem graphicsOn_tint {V vs vs' a a' b b'} {p p' : Colors}
    (hu : UniqueNumbers (fun g : Graphic => g.number.toNat) d.graphicDefinition) (hr : Pairwise2 (Dyed d F G) vs vs')
    (h0 : ∀ pos, Value.graphic 0 pos ∉ vs) (hv : ∀ v ∈ vs, v ∈ V) (hc : ∀ v ∈ vs, ColorOk d.multiCfg.colorScheme v)
    (hc' : ∀ v ∈ vs', ColorOk d.multiCfg.colorScheme v) (hp : ColorsTint d F G p p') (hw : a.width = a'.width)
    (hh : a.height = a'.height) (h : GraphicsOn d p vs a b) (h' : GraphicsOn d p' vs' a' b')
    (hpx : ∀ i j, TintAt d F G V i j (a.px i j) (a'.px i j)) : ∀ i j, TintAt d F G V i j (b.px i j) (b'.px i j) := by
  intro i j
  by_cases hn : OnBits d V i j ∧ d.multiCfg.colorScheme ≠ .color24Bit
  · exact .inr (.inr (.inr hn))
  · obtain ⟨o, h1, e⟩ := h.px i j
    obtain ⟨o', h1', e'⟩ := h'.px i j
    rw [← hw, ← hh] at h1'
    rw [e, e']
    rcases layered_tint hu hn hr h0 hv hc hc' hp h1 h1' with rfl | ⟨x, y, rfl, rfl, k⟩
    · cases o with
      | none => exact hpx i j
      | some x => exact .inl rfl
    · exact k

theorem foldl_value {vs : List Value} : ∀ {t : TextAttr}, HasValue d t.foreground → (∀ v ∈ vs, ColorOk d.multiCfg.colorScheme v) →
    HasValue d (vs.foldl (TextAttr.apply (signAttr d)) t).foreground := by
  induction vs with
  | nil => intro t h _; exact h
  | cons v vs ih =>
    intro t h hv
    refine ih ?_ fun w hw => hv w (List.mem_cons_of_mem _ hw)
    have hc := hv v (List.mem_cons_self ..)
    cases v with
    | colorForeground c => exact getD_value fun a k => hc a k
    | font f => cases f <;> exact h
    | _ => exact h

theorem composed_tint {V bg bg' more more'} (hu : UniqueNumbers (fun g : Graphic => g.number.toNat) d.graphicDefinition)
    (h0 : ∀ pos, Value.graphic 0 pos ∉ V) (hbg : Or2 G bg bg') (hbv : HasValue d bg) (hbv' : HasValue d bg')
    (hm : SectionsTint d F G more more') : ∀ {t t' sp rect vs vs' a a' b b'},
    Pairwise2 (Dyed d F G) vs vs' → AttrTint F t t' → HasValue d t.foreground → HasValue d t'.foreground →
    (∀ v ∈ vs, v ∈ V ∧ ColorOk d.multiCfg.colorScheme v) → (∀ v ∈ vs', ColorOk d.multiCfg.colorScheme v) →
    (∀ q ∈ more, ∀ v ∈ q.2, v ∈ V ∧ ColorOk d.multiCfg.colorScheme v) →
    (∀ q ∈ more', ∀ v ∈ q.2, ColorOk d.multiCfg.colorScheme v) →
    a.width = a'.width → a.height = a'.height → Composed d bg t sp rect vs more a b → Composed d bg' t' sp rect vs' more' a' b' →
    (∀ i j, TintAt d F G V i j (a.px i j) (a'.px i j)) → ∀ i j, TintAt d F G V i j (b.px i j) (b'.px i j) := by
  induction hm with
  | nil =>
    intro t t' sp rect vs vs' a a' b b' hr ht k1 k2 hv hv' _ _ hw hh h h' hpx
    cases h with
    | last g1 g2 =>
      cases h' with
      | last g1' g2' =>
        exact textDrawn_tint hr ht g2 g2' (graphicsOn_tint hu hr (fun pos hm => h0 pos (hv _ hm).1) (fun v hm => (hv v hm).1)
          (fun v hm => (hv v hm).2) hv' ⟨ht.color, hbg, k1, k2, hbv, hbv'⟩ hw hh g1 g1' hpx)
  | @cons x y more more' hx _ ih =>
    intro t t' sp rect vs vs' a a' b b' hr ht k1 k2 hv hv' hq hq' hw hh h h' hpx
    obtain ⟨r, us⟩ := x
    obtain ⟨r', us'⟩ := y
    obtain ⟨rfl, hu'⟩ : r = r' ∧ _ := hx
    cases h with
    | next g1 g2 g3 =>
      cases h' with
      | next g1' g2' g3' =>
        rw [spacing_tint hr] at g3'
        have z1 := textDrawn_size g2
        have z2 := textDrawn_size g2'
        exact ih hu' (foldl_tint hr ht) (foldl_value k1 fun v hm => (hv v hm).2) (foldl_value k2 hv') (hq _ (List.mem_cons_self ..))
          (hq' _ (List.mem_cons_self ..)) (fun q hm => hq q (List.mem_cons_of_mem _ hm))
          (fun q hm => hq' q (List.mem_cons_of_mem _ hm)) (by rw [z1.1, z2.1, g1.width, g1'.width, hw])
          (by rw [z1.2, z2.2, g1.height, g1'.height, hh]) g3 g3'
          (textDrawn_tint hr ht g2 g2' (graphicsOn_tint hu hr (fun pos hm => h0 pos (hv _ hm).1) (fun v hm => (hv v hm).1)
            (fun v hm => (hv v hm).2) hv' ⟨ht.color, hbg, k1, k2, hbv, hbv'⟩ hw hh g1 g1' hpx))

theorem pageTimes_tint {dflt vs vs'} (h : Pairwise2 (Dyed d F G) vs vs') : ∀ {c}, pageTimes dflt c vs' = pageTimes dflt c vs := by
  unfold pageTimes
  induction h with
  | nil => intro c; rfl
  | cons hr _ ih =>
    intro c
    rw [List.foldl_cons, List.foldl_cons, ih]
    rcases dyed_or hr with rfl | ⟨c, c', rfl, rfl, _⟩ | ⟨r, c, c', rfl, rfl, _⟩ | ⟨c, c', rfl, rfl, _⟩ | ⟨c, c', rfl, rfl, _⟩ <;> rfl

theorem background_tint {vs vs'} (h : Pairwise2 (Dyed d F G) vs vs') : ∀ {c c'}, Or2 G c c' →
    Or2 G (background (signPage d).2 c vs) (background (signPage d).2 c' vs') := by
  unfold background
  induction h with
  | nil => intro c c' h; exact h
  | @cons v v' _ _ hr _ ih =>
    intro c c' h
    rw [List.foldl_cons, List.foldl_cons]
    refine ih ?_
    rcases dyed_or hr with rfl | ⟨c, c', rfl, rfl, e⟩ | ⟨r, c, c', rfl, rfl, e⟩ | ⟨c, c', rfl, rfl, e⟩ | ⟨c, c', rfl, rfl, e⟩
    · cases v' with
      | colorBackground _ => exact .inl rfl
      | pageBackground _ => exact .inl rfl
      | _ => exact h
    · exact h
    · exact h
    · exact .inr e
    · exact .inr e

theorem background_value {vs : List Value} : ∀ {c}, HasValue d c → (∀ v ∈ vs, ColorOk d.multiCfg.colorScheme v) →
    HasValue d (background (signPage d).2 c vs) := by
  unfold background
  induction vs with
  | nil => intro c h _; exact h
  | cons v vs ih =>
    intro c h hv
    rw [List.foldl_cons]
    refine ih ?_ fun w hw => hv w (List.mem_cons_of_mem _ hw)
    have hc := hv v (List.mem_cons_self ..)
    cases v with
    | colorBackground c => exact getD_value fun a k => hc a k
    | pageBackground c => exact getD_value fun a k => hc a k
    | _ => exact h

theorem lastRect_tint {more more'} (h : SectionsTint d F G more more') : ∀ {r}, lastRect d r more' = lastRect d r more := by
  induction h with
  | nil => intro r; rfl
  | @cons x y _ _ hx _ ih =>
    intro r
    obtain ⟨a, _⟩ := x
    obtain ⟨b, _⟩ := y
    obtain ⟨rfl, _⟩ : a = b ∧ _ := hx
    exact ih

theorem pictured_tint {V ps ps'} (hu : UniqueNumbers (fun g : Graphic => g.number.toNat) d.graphicDefinition)
    (h0 : ∀ pos, Value.graphic 0 pos ∉ V) (h : Pairwise2 (Pairwise2 (Dyed d F G)) ps ps') : ∀ {t t' p p' xs xs'},
    AttrTint F t t' → HasValue d t.foreground → HasValue d t'.foreground → p.1 = p'.1 → Or2 G p.2 p'.2 → HasValue d p.2 →
    HasValue d p'.2 → (∀ vs ∈ ps, ∀ v ∈ vs, v ∈ V ∧ ColorOk d.multiCfg.colorScheme v) →
    (∀ vs ∈ ps', ∀ v ∈ vs, ColorOk d.multiCfg.colorScheme v) → Pictured d t p xs ps → Pictured d t' p' xs' ps' →
    Pairwise2 (DyedPage d F G V) xs xs' := by
  induction h with
  | nil =>
    intro t t' p p' xs xs' _ _ _ _ _ _ _ _ _ h1 h2
    unfold Pictured at h1 h2
    subst h1; subst h2
    exact .nil
  | @cons vs vs' ps ps' hr _ ih =>
    intro t t' p p' xs xs' ht k1 k2 hp hb hbv hbv' hv hv' h1 h2
    unfold Pictured at h1 h2
    obtain ⟨r1, m1, g1, rfl, g2⟩ := h1
    obtain ⟨r2, m2, l1, rfl, l2⟩ := h2
    have hm := hv vs (List.mem_cons_self ..)
    have hm' := hv' vs' (List.mem_cons_self ..)
    have hbg := background_tint hr hb
    have b1 := background_value hbv fun v h => (hm v h).2
    have b2 := background_value hbv' hm'
    rw [pageTimes_tint hr, ← hp] at l2 ⊢
    have s1 := composed_size g1
    have s2 := composed_size l1
    have c1 := sections_all hm
    have c2 := sections_all hm'
    have hs := sections_tint hr
    have hplain : ∀ W H i j, TintAt d F G V i j ((plain d W H (background (signPage d).2 p.2 vs)).px i j)
        ((plain d W H (background (signPage d).2 p'.2 vs')).px i j) := fun W H i j => tintAt_back hbg
    refine .cons ⟨⟨rfl, _, _, rfl, rfl, rfl, s1.1.trans s2.1.symm, s1.2.trans s2.2.symm⟩, ?_⟩ (Pairwise2.append ?_
      (ih (p' := (pageTimes (signPage d).1 p.1 vs, background (signPage d).2 p'.2 vs')) (foldl_tint hr ht) (foldl_value k1 fun v h => (hm v h).2) (foldl_value k2 hm') (by rfl) hbg b1 b2
        (fun us hu => hv us (List.mem_cons_of_mem _ hu))
        (fun us hu => hv' us (List.mem_cons_of_mem _ hu)) g2 l2))
    · rintro p q ⟨⟩ ⟨⟩
      exact composed_tint hu h0 hbg b1 b2 hs.2 hs.1 ht k1 k2 c1.1 c2.1 c1.2 c2.2 (by rfl) (by rfl) g1 l1 (hplain _ _)
    · rw [lastRect_tint hs.2]
      split
      · refine .cons ⟨⟨rfl, _, _, rfl, rfl, rfl, rfl, rfl⟩, ?_⟩ .nil
        rintro p q ⟨⟩ ⟨⟩ i j
        exact hplain _ _ i j
      · exact .nil

end Ntcip
