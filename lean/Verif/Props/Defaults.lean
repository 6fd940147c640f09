import Verif.Spec.Defaults
import Verif.Props.Sequel
/-
C102: the defaults of a sign are like tags at the beginning of each message.
-/
namespace Ntcip
open Spec Tests

variable {d : Dms} {x : Defaults}

/-! ### values -/

theorem spelled_apply (a : TextAttr) (v : Value) :
    TextAttr.apply (signAttr d) a (spelled x v) = TextAttr.apply (signAttr (withDefaults d x)) a v := by
  cases v
  case font f => rcases f with _ | ⟨n, w⟩ <;> rfl
  case justificationLine j => cases j <;> rfl
  case justificationPage j => cases j <;> rfl
  all_goals rfl

theorem spelled_fold (vs : List Value) : ∀ a, (vs.map (spelled x)).foldl (TextAttr.apply (signAttr d)) a =
    vs.foldl (TextAttr.apply (signAttr (withDefaults d x))) a := by
  induction vs with
  | nil => intro a; rfl
  | cons v vs ih => intro a; rw [List.map_cons, List.foldl_cons, List.foldl_cons, spelled_apply, ih]

theorem spelled_spacingAfter (sp : Option UInt8) (v : Value) : spacingAfter sp (spelled x v) = spacingAfter sp v := by
  cases v
  case font f => rcases f with _ | ⟨n, w⟩ <;> rfl
  case justificationLine j => cases j <;> rfl
  case justificationPage j => cases j <;> rfl
  all_goals rfl

theorem spelled_spacing (vs : List Value) : ∀ a, (vs.map (spelled x)).foldl spacingAfter a = vs.foldl spacingAfter a := by
  induction vs with
  | nil => intro a; rfl
  | cons v vs ih => intro a; rw [List.map_cons, List.foldl_cons, List.foldl_cons, spelled_spacingAfter, ih]

theorem spelled_times (vs : List Value) : ∀ a,
    pageTimes (signPage d).1 a (vs.map (spelled x)) = pageTimes (signPage (withDefaults d x)).1 a vs := by
  unfold pageTimes
  induction vs with
  | nil => intro a; rfl
  | cons v vs ih =>
    intro a
    rw [List.map_cons, List.foldl_cons, List.foldl_cons, ih]
    cases v
    case font f => rcases f with _ | ⟨n, w⟩ <;> rfl
    case justificationLine j => cases j <;> rfl
    case justificationPage j => cases j <;> rfl
    all_goals rfl

theorem spelled_background (vs : List Value) : ∀ a,
    background (signPage d).2 a (vs.map (spelled x)) = background (signPage (withDefaults d x)).2 a vs := by
  unfold background
  induction vs with
  | nil => intro a; rfl
  | cons v vs ih =>
    intro a
    rw [List.map_cons, List.foldl_cons, List.foldl_cons, ih]
    cases v
    case font f => rcases f with _ | ⟨n, w⟩ <;> rfl
    case justificationLine j => cases j <;> rfl
    case justificationPage j => cases j <;> rfl
    all_goals rfl

theorem spelled_pieces (vs : List Value) : ∀ a sp n b, pieces (signAttr d) a sp n b (vs.map (spelled x)) =
    pieces (signAttr (withDefaults d x)) a sp n b vs := by
  induction vs with
  | nil => intro a sp n b; rfl
  | cons v vs ih =>
    intro a sp n b
    rw [List.map_cons]
    unfold pieces
    rw [ih, spelled_apply, spelled_spacingAfter]
    cases v
    case font f => rcases f with _ | ⟨n, w⟩ <;> rfl
    case justificationLine j => cases j <;> rfl
    case justificationPage j => cases j <;> rfl
    all_goals rfl

theorem spelled_numbers (vs : List Value) : ∀ a n b, numbers (signAttr d) a n b (vs.map (spelled x)) =
    numbers (signAttr (withDefaults d x)) a n b vs := by
  induction vs with
  | nil => intro a n b; rfl
  | cons v vs ih =>
    intro a n b
    rw [List.map_cons]
    unfold numbers
    rw [ih, spelled_apply]
    cases v
    case font f => rcases f with _ | ⟨n, w⟩ <;> rfl
    case justificationLine j => cases j <;> rfl
    case justificationPage j => cases j <;> rfl
    all_goals rfl

theorem spelled_tidy (vs : List Value) : ∀ a n b, Tidy (signAttr d) a n b (vs.map (spelled x)) ↔
    Tidy (signAttr (withDefaults d x)) a n b vs := by
  induction vs with
  | nil => intro a n b; exact Iff.rfl
  | cons v vs ih =>
    intro a n b
    rw [List.map_cons]
    unfold Tidy
    rw [ih, spelled_apply]
    cases v
    case font f => rcases f with _ | ⟨n, w⟩ <;> rfl
    case justificationLine j => cases j <;> rfl
    case justificationPage j => cases j <;> rfl
    all_goals rfl

theorem spelled_tag (v : Value) : (spelled x v).tag = v.tag := by
  cases v
  case font f => rcases f with _ | ⟨n, w⟩ <;> rfl
  case justificationLine j => cases j <;> rfl
  case justificationPage j => cases j <;> rfl
  all_goals rfl

theorem spelled_newPage (v : Value) : spelled x v = .newPage ↔ v = .newPage := by
  cases v
  case font f => rcases f with _ | ⟨n, w⟩ <;> simp [spelled]
  case justificationLine j => cases j <;> simp [spelled]
  case justificationPage j => cases j <;> simp [spelled]
  all_goals simp [spelled]

def spelledSections (x : Defaults) (more : List (Rectangle × List Value)) : List (Rectangle × List Value) :=
  more.map fun s => (s.1, s.2.map (spelled x))

theorem sections_spelled (vs : List Value) :
    sections (vs.map (spelled x)) = ((sections vs).1.map (spelled x), spelledSections x (sections vs).2) := by
  induction vs with
  | nil => rfl
  | cons v vs ih =>
    rw [List.map_cons]
    cases v
    case font f => rcases f with _ | ⟨n, w⟩ <;> simp [sections, spelled, ih, spelledSections]
    case justificationLine j => cases j <;> simp [sections, spelled, ih, spelledSections]
    case justificationPage j => cases j <;> simp [sections, spelled, ih, spelledSections]
    all_goals simp [sections, spelled, ih, spelledSections]

theorem splitPages_spelled (vs : List Value) : splitPages (vs.map (spelled x)) = (splitPages vs).map (·.map (spelled x)) := by
  induction vs with
  | nil => rfl
  | cons v vs ih =>
    rw [List.map_cons]
    by_cases hv : v = .newPage
    · subst hv
      have : spelled x .newPage = .newPage := rfl
      simp only [splitPages, this, if_true, ih]
      rfl
    · have hv' : spelled x v ≠ .newPage := fun h => hv ((spelled_newPage v).1 h)
      obtain ⟨p, ps, e1, e2⟩ := splitPages_cons (vs := vs) hv
      rw [e2]
      simp only [splitPages]
      rw [if_neg hv', ih, e1]
      rfl

/-! ### checks -/

theorem defaults_valueOk {v : Value} : ValueOk d v ↔ ValueOk (withDefaults d x) v := by
  cases v
  case justificationLine j => cases j <;> exact Iff.rfl
  case justificationPage j => cases j <;> exact Iff.rfl
  case newLine n => cases n <;> exact Iff.rfl
  case textRectangle r =>
    refine and_congr Iff.rfl ⟨fun h => ?_, fun h => ?_⟩ <;> obtain ⟨h1, h2, h3, h4, h5, h6, h7, h8, h9, h10⟩ := h <;>
      exact ⟨h1, h2, h3, h4, h5, h6, h7, h8, h9, h10⟩
  all_goals exact Iff.rfl

/-- what a value with a default left open is, and what it becomes -/
theorem spelled_cases (hl : x.justLine ≠ .other ∧ x.justLine ≠ .full) (hp : x.justPage ≠ .other) (v : Value) :
    spelled x v = v ∨ (QuietValue d v ∧ QuietValue d (spelled x v)) := by
  have ok : ∀ {v}, isState v = true → tagColor v = none → (ColorOk d.multiCfg.colorScheme v → ValueOk d v) → QuietValue d v :=
    fun h1 h2 h3 => usable_quiet h1 (h3 fun c hc => by rw [h2] at hc; cases hc)
  cases v
  case font f => exact .inr ⟨ok rfl rfl fun h => ⟨h, rfl⟩, by
    rcases f with _ | ⟨n, w⟩ <;> exact ok rfl rfl fun h => ⟨h, rfl⟩⟩
  case justificationLine j =>
    cases j
    · exact .inr ⟨ok rfl rfl fun h => ⟨h, rfl⟩, ok rfl rfl fun h => ⟨h, hl⟩⟩
    · exact .inl rfl
  case justificationPage j =>
    cases j
    · exact .inr ⟨ok rfl rfl fun h => ⟨h, rfl⟩, ok rfl rfl fun h => ⟨h, hp⟩⟩
    · exact .inl rfl
  case pageTime a b => exact .inr ⟨ok rfl rfl fun h => ⟨h, rfl⟩, ok rfl rfl fun h => ⟨h, rfl⟩⟩
  all_goals exact .inl rfl

theorem spelled_background_iff (hl : x.justLine ≠ .other ∧ x.justLine ≠ .full) (hp : x.justPage ≠ .other) (v : Value) :
    (∀ z, ¬ errors (BackgroundFault d (spelled x v)) z) ↔ ∀ z, ¬ errors (BackgroundFault (withDefaults d x) v) z := by
  have e1 : BackgroundFault (withDefaults d x) v = BackgroundFault d v := by
    funext e
    refine propext ⟨fun h => ?_, fun h => ?_⟩
    · cases h with
      | cb h => exact .cb h
      | pb h => exact .pb h
    · cases h with
      | cb h => exact .cb (d := withDefaults d x) h
      | pb h => exact .pb (d := withDefaults d x) h
  rw [e1]
  rcases spelled_cases (d := d) hl hp v with e | ⟨h1, h2⟩
  · rw [e]
  · exact ⟨fun _ => h1.1, fun _ => h2.1⟩

theorem spelled_paint_iff (hl : x.justLine ≠ .other ∧ x.justLine ≠ .full) (hp : x.justPage ≠ .other) (v : Value) :
    (∀ z, ¬ paintStop d (spelled x v) z) ↔ ∀ z, ¬ paintStop (withDefaults d x) v z := by
  have e2 : PaintFault (withDefaults d x) v = PaintFault d v := by
    funext e
    refine propext ⟨fun h => ?_, fun h => ?_⟩
    · cases h with
      | value h1 h2 => exact .value h1 fun h => h2 (defaults_valueOk.1 h)
      | missing h => exact .missing h
      | version h1 h2 => exact .version h1 h2
      | big h1 h2 h3 => exact .big h1 h2 h3
    · cases h with
      | value h1 h2 => exact .value h1 fun h => h2 (defaults_valueOk.2 h)
      | missing h => exact .missing (d := withDefaults d x) h
      | version h1 h2 => exact .version (d := withDefaults d x) h1 h2
      | big h1 h2 h3 => exact .big (d := withDefaults d x) h1 h2 h3
  have e4 : paintStop (withDefaults d x) v = paintStop d v := by
    unfold paintStop
    rw [e2]
    rfl
  rw [e4]
  rcases spelled_cases (d := d) hl hp v with e | ⟨h1, h2⟩
  · rw [e]
  · exact ⟨fun _ => h1.2.1, fun _ => h2.2.1⟩

theorem defaults_layout (v : Value) : LayoutFault (withDefaults d x) v = LayoutFault d v := by
  funext e
  unfold LayoutFault
  rw [← defaults_valueOk]

theorem spelled_layout_iff (hl : x.justLine ≠ .other ∧ x.justLine ≠ .full) (hp : x.justPage ≠ .other) (v : Value) :
    (∀ z, ¬ errors (LayoutFault d (spelled x v)) z) ↔ ∀ z, ¬ errors (LayoutFault (withDefaults d x) v) z := by
  rw [defaults_layout]
  rcases spelled_cases (d := d) hl hp v with e | ⟨h1, h2⟩
  · rw [e]
  · exact ⟨fun _ => h1.2.2, fun _ => h2.2.2⟩

theorem defaults_textStops (rect : Rectangle) (spans : List Span) :
    textStops (withDefaults d x) rect spans = textStops d rect spans := by
  have h1 : SpanFontFault (withDefaults d x) = SpanFontFault d := by
    funext s e
    refine propext ⟨fun h => ?_, fun h => ?_⟩
    · cases h with
      | missing h => exact .missing h
      | version h1 h2 h3 => exact .version h1 h2 h3
    · cases h with
      | missing h => exact .missing (d := withDefaults d x) h
      | version h1 h2 h3 => exact .version (d := withDefaults d x) h1 h2 h3
  have h2 : GlyphFault (withDefaults d x) = GlyphFault d := by
    funext s e
    refine propext ⟨fun h => ?_, fun h => ?_⟩
    · cases h with
      | font h => rw [h1] at h; exact .font h
      | character h1 h2 h3 h4 => exact .character h1 h2 h3 h4
    · cases h with
      | font h => rw [← h1] at h; exact .font h
      | character h1 h2 h3 h4 => exact .character (d := withDefaults d x) h1 h2 h3 h4
  have h3 : spanStops (withDefaults d x) rect spans = spanStops d rect spans := by
    funext s
    unfold spanStops spanChecks
    rw [h1, h2]
    rfl
  unfold textStops
  rw [h3]

theorem defaults_nextStop (r : Rectangle) : nextStop (withDefaults d x) r = nextStop d r := by
  unfold nextStop
  rw [defaults_layout]

theorem spelled_rectStops (hl : x.justLine ≠ .other ∧ x.justLine ≠ .full) (hp : x.justPage ≠ .other) {t sp rect ws next} :
    Silent (rectStops d t sp rect (ws.map (spelled x)) next) ↔ Silent (rectStops (withDefaults d x) t sp rect ws next) := by
  have e : textStops d rect (layoutOf d t sp rect (ws.map (spelled x))) =
      textStops d rect (layoutOf (withDefaults d x) t sp rect ws) := by
    refine textStops_pieces ?_
    unfold layoutOf
    rw [spelled_pieces, List.map_map, List.map_map]
    rfl
  unfold rectStops
  simp only [silent_append, silent_map, List.forall_mem_map]
  rw [e, defaults_textStops, show nextStop (withDefaults d x) = nextStop d from funext defaults_nextStop]
  refine and_congr (forall_congr' fun v => forall_congr' fun _ => spelled_paint_iff hl hp v)
    (and_congr_left fun _ => forall_congr' fun v => forall_congr' fun _ => spelled_layout_iff hl hp v)

theorem spelled_rectsStops (hl : x.justLine ≠ .other ∧ x.justLine ≠ .full) (hp : x.justPage ≠ .other) :
    ∀ {more n t sp rect ws}, Silent (rectsStops d n t sp rect (ws.map (spelled x)) (spelledSections x more)) ↔
      Silent (rectsStops (withDefaults d x) n t sp rect ws more) := by
  intro more
  induction more with
  | nil =>
    intro n t sp rect ws
    unfold spelledSections
    simp only [List.map_nil]
    unfold rectsStops
    rw [silent_append, silent_append, spelled_rectStops hl hp]
  | cons s more ih =>
    intro n t sp rect ws
    obtain ⟨r, us⟩ := s
    unfold spelledSections
    simp only [List.map_cons]
    unfold rectsStops
    rw [silent_append, silent_append, silent_cons, silent_cons, spelled_rectStops hl hp, spelled_fold, spelled_spacing]
    exact and_congr_right fun _ => and_congr_right fun _ => ih

theorem spelled_pageStops (hl : x.justLine ≠ .other ∧ x.justLine ≠ .full) (hp : x.justPage ≠ .other) {t p} :
    Silent (pageStops d t (p.map (spelled x))) ↔ Silent (pageStops (withDefaults d x) t p) := by
  unfold pageStops
  rw [silent_append, silent_append, silent_map, silent_map, List.forall_mem_map, sections_spelled]
  exact and_congr (forall_congr' fun v => forall_congr' fun _ => spelled_background_iff hl hp v)
    (spelled_rectsStops hl hp)

theorem spelled_pagesQuiet (hl : x.justLine ≠ .other ∧ x.justLine ≠ .full) (hp : x.justPage ≠ .other) : ∀ {ps t},
    PagesQuiet d t (ps.map (·.map (spelled x))) ↔ PagesQuiet (withDefaults d x) t ps := by
  intro ps
  induction ps with
  | nil => intro t; exact Iff.rfl
  | cons p ps ih =>
    intro t
    rw [List.map_cons]
    unfold PagesQuiet
    rw [spelled_pageStops hl hp, spelled_fold, ih]

/-! ### pixels -/

theorem spelled_colors (p : Colors) (v : Value) : Colors.apply (withDefaults d x) p v = Colors.apply d p (spelled x v) := by
  cases v
  case font f => rcases f with _ | ⟨n, w⟩ <;> rfl
  case justificationLine j => cases j <;> rfl
  case justificationPage j => cases j <;> rfl
  all_goals rfl

theorem spelled_other {v : Value} (h1 : ∀ r c, v ≠ .colorRectangle r c) (h2 : ∀ n pos, v ≠ .graphic n pos) :
    (∀ r c, spelled x v ≠ .colorRectangle r c) ∧ ∀ n pos, spelled x v ≠ .graphic n pos := by
  have key : spelled x v = v ∨ isState (spelled x v) = true := by
    cases v
    case font f => rcases f with _ | ⟨n, w⟩ <;> exact .inr rfl
    case justificationLine j => cases j <;> exact .inr rfl
    case justificationPage j => cases j <;> exact .inr rfl
    case pageTime a b => exact .inr rfl
    all_goals exact .inl rfl
  rcases key with e | e
  · rw [e]; exact ⟨h1, h2⟩
  · exact ⟨fun r c h => (by rw [h] at e; cases e), fun n pos h => (by rw [h] at e; cases e)⟩

theorem spelled_layered {W H : Nat} {p ws i j o} (h : Layered (withDefaults d x) W H p ws i j o) :
    Layered d W H p (ws.map (spelled x)) i j o := by
  induction h with
  | nil => exact .nil
  | @cons p v vs i j o u hl _ ih =>
    rw [List.map_cons]
    rw [spelled_colors] at ih
    refine .cons ?_ ih
    cases hl with
    | rect h => exact .rect h
    | offRect h => exact .offRect h
    | graphic h1 h2 h3 => exact .graphic (d := d) h1 h2 h3
    | offGraphic h1 h2 => exact .offGraphic (d := d) h1 h2
    | other h1 h2 =>
      obtain ⟨k1, k2⟩ := spelled_other (x := x) h1 h2
      exact .other k1 k2

theorem spelled_textDrawn {t sp rect ws a b} (h : TextDrawn (withDefaults d x) t sp rect ws a b) :
    TextDrawn d t sp rect (ws.map (spelled x)) a b := by
  unfold TextDrawn at h ⊢
  rw [spelled_pieces, spelled_numbers, spelled_tidy]
  exact h

theorem spelled_composed {bg t sp rect ws more a b} (h : Composed (withDefaults d x) bg t sp rect ws more a b) :
    Composed d bg t sp rect (ws.map (spelled x)) (spelledSections x more) a b := by
  have gr : ∀ {p ws a b}, GraphicsOn (withDefaults d x) p ws a b → GraphicsOn d p (ws.map (spelled x)) a b := by
    intro p ws a b h
    refine ⟨h.width, h.height, fun i j => ?_⟩
    obtain ⟨o, h1, h2⟩ := h.px i j
    exact ⟨o, spelled_layered h1, h2⟩
  induction h with
  | last h1 h2 => exact .last (gr h1) (spelled_textDrawn h2)
  | next h1 h2 _ ih =>
    unfold spelledSections
    rw [List.map_cons]
    refine .next (gr h1) (spelled_textDrawn h2) ?_
    rw [spelled_fold, spelled_spacing]
    exact ih

theorem spelled_lastRect : ∀ {more rect}, lastRect d rect (spelledSections x more) = lastRect (withDefaults d x) rect more := by
  intro more
  induction more with
  | nil => intro rect; rfl
  | cons s more ih =>
    intro rect
    obtain ⟨r, us⟩ := s
    unfold spelledSections
    simp only [List.map_cons, lastRect]
    exact ih

theorem spelled_pictured : ∀ {ps t p xs}, Pictured (withDefaults d x) t p xs ps →
    Pictured d t p xs (ps.map (·.map (spelled x))) := by
  intro ps
  induction ps with
  | nil => intro t p xs h; exact h
  | cons q ps ih =>
    intro t p xs h
    rw [List.map_cons]
    unfold Pictured at h ⊢
    obtain ⟨raster, more, h1, h2, h3⟩ := h
    rw [spelled_times, spelled_background, sections_spelled, spelled_fold]
    simp only [spelled_lastRect]
    exact ⟨raster, more, spelled_composed h1, h2, ih h3⟩

/-! ### the property -/

theorem tags_state (x : Defaults) : ∀ v ∈ x.tags, isState v = true := by
  intro v hv
  simp only [Defaults.tags, List.mem_cons, List.not_mem_nil, or_false] at hv
  rcases hv with rfl | rfl | rfl | rfl <;> rfl

/-- **C102** a sign with other defaults for font, justifications and times shows a message exactly if the sign without
them shows the message that begins with tags for these defaults, and in which the defaults are written wherever a tag
leaves them open; what is given is the same. -/
theorem C102_defaults (d : Dms) (hd : SizeOk d) (hok : SignOk d) (hf : FontsOk d.fontDefinition) (W H : Nat)
    (hg : GraphicsOk W H d.graphicDefinition) (x : Defaults) (hfo : 1 ≤ x.font.toNat)
    (hl : x.justLine ≠ .other ∧ x.justLine ≠ .full) (hp : x.justPage ≠ .other)
    (ht : ∀ t ∈ [Tag.fo, .jl, .jp, .pt], d.multiCfg.supportedMultiTags t = true)
    (ms ms' : Str) (hs : SizesOk d ms) (hs' : SizesOk d ms') (vs : List Value) (hv : Parses (slices ms) vs)
    (hv' : Parses (slices ms') (x.tags ++ vs.map (spelled x))) (xs) :
    ShownAs (withDefaults d x) ms xs ↔ ShownAs d ms' xs := by
  have hd' : SizeOk (withDefaults d x) := ⟨hd.width, hd.height, hd.size⟩
  have hok' : SignOk (withDefaults d x) := ⟨hok.width, hok.height, hfo, hp, hl, hok.fonts, hok.graphics⟩
  have hT := tags_state x
  have hTn : ∀ v ∈ x.tags, v ≠ .newPage := by
    rintro v h rfl
    have := hT _ h
    cases this
  have hqv : ∀ v ∈ x.tags, QuietValue d v := by
    intro v hm
    refine usable_quiet (hT v hm) ?_
    simp only [Defaults.tags, List.mem_cons, List.not_mem_nil, or_false] at hm
    rcases hm with rfl | rfl | rfl | rfl <;> refine ⟨fun c hc => by simp [tagColor] at hc, ?_⟩
    · rfl
    · exact hl
    · exact hp
    · rfl
  obtain ⟨p, ps, hsp⟩ : ∃ p ps, splitPages vs = p :: ps := by
    cases h : splitPages vs with
    | nil => exact absurd h (splitPages_ne_nil _)
    | cons p ps => exact ⟨p, ps, rfl⟩
  have hspl : splitPages (x.tags ++ vs.map (spelled x)) = (x.tags ++ p.map (spelled x)) :: ps.map (·.map (spelled x)) := by
    refine splitPages_before hTn ?_
    rw [splitPages_spelled, hsp]
    rfl
  have e1 : x.tags.foldl (TextAttr.apply (signAttr d)) (signAttr d) = signAttr (withDefaults d x) := rfl
  have tg : TagsOk (withDefaults d x) vs ↔ TagsOk d (x.tags ++ vs.map (spelled x)) := by
    unfold TagsOk
    constructor
    · intro h v hm t e
      rcases List.mem_append.1 hm with hm | hm
      · refine ht t ?_
        simp only [Defaults.tags, List.mem_cons, List.not_mem_nil, or_false] at hm
        rcases hm with rfl | rfl | rfl | rfl <;> cases e <;> decide
      · obtain ⟨u, hu, rfl⟩ := List.mem_map.1 hm
        rw [spelled_tag] at e
        exact h u hu t e
    · intro h v hm t e
      exact h (spelled x v) (List.mem_append_right _ (List.mem_map_of_mem hm)) t (by rw [spelled_tag]; exact e)
  have qu : PagesQuiet (withDefaults d x) (signAttr (withDefaults d x)) (splitPages vs) ↔
      PagesQuiet d (signAttr d) (splitPages (x.tags ++ vs.map (spelled x))) := by
    rw [hspl, hsp]
    unfold PagesQuiet
    rw [List.foldl_append, e1, spelled_fold, spelled_pagesQuiet hl hp, ← spelled_pageStops hl hp, ← e1]
    exact and_congr_left fun _ => ⟨state_pageStops hT hqv, state_pageStops_inv hT⟩
  have fwd : ∀ xs, ShownAs (withDefaults d x) ms xs → ShownAs d ms' xs := by
    intro xs hx
    obtain ⟨⟨h1, h2⟩, h3⟩ := (shown_iff (withDefaults d x) hd' hok' hf W H hg ms hs hv xs).1 hx
    refine (shown_iff d hd hok hf W H hg ms' hs' hv' xs).2 ⟨⟨tg.1 h1, qu.1 h2⟩, ?_⟩
    have h3 := spelled_pictured h3
    rw [hsp] at h3
    rw [hspl]
    rw [List.map_cons] at h3
    unfold Pictured at h3 ⊢
    obtain ⟨raster, more, k1, k2, k3⟩ := h3
    have ft : pageTimes (signPage d).1 (signPage d).1 (x.tags ++ p.map (spelled x)) =
        pageTimes (signPage d).1 (signPage (withDefaults d x)).1 (p.map (spelled x)) := by
      unfold pageTimes; rw [List.foldl_append]; rfl
    have fb : background (signPage d).2 (signPage d).2 (x.tags ++ p.map (spelled x)) =
        background (signPage d).2 (signPage (withDefaults d x)).2 (p.map (spelled x)) := by
      unfold background; rw [List.foldl_append]; rfl
    simp only [ft, fb, state_sections hT, List.foldl_append, e1]
    refine ⟨raster, more, ?_, k2, k3⟩
    refine state_composed hT (.inl ?_) (by rw [e1]; exact k1)
    intro c hm
    simp [Defaults.tags] at hm
  refine ⟨fwd xs, fun hx => ?_⟩
  obtain ⟨⟨h1, h2⟩, _⟩ := (shown_iff d hd hok hf W H hg ms' hs' hv' xs).1 hx
  obtain ⟨ys, hy⟩ := quiet_shown (withDefaults d x) hd' hok' ms hs hv ⟨tg.2 h1, qu.2 h2⟩
  rw [shownAs_unique hx (fwd ys hy)]
  exact hy

/-- the defaults of a sign -/
def Spec.ownDefaults (d : Dms) : Defaults :=
  ⟨d.multiCfg.defaultFont, d.multiCfg.defaultJustificationLine, d.multiCfg.defaultJustificationPage,
    d.multiCfg.defaultPageOnTime, d.multiCfg.defaultPageOffTime⟩

/-- **C102 (own)** on a sign made by the builder, its own defaults can be written at the beginning of a message and
wherever they are left open: nothing changes. -/
theorem C102_own (p : Profile) (b : DmsBuilder) (d : Dms) (h : b.build p = .ok d)
    (hw : d.vmsCfg.signWidthPixels.toNat < 65535) (hh : d.vmsCfg.signHeightPixels.toNat < 65535)
    (hz : ¬ (d.vmsCfg.signWidthPixels.toNat = 0 ∧ d.vmsCfg.signHeightPixels.toNat = 0))
    (hf : 1 ≤ d.multiCfg.defaultFont.toNat)
    (hjp : d.multiCfg.defaultJustificationPage ≠ .other)
    (hjl : d.multiCfg.defaultJustificationLine ≠ .other ∧ d.multiCfg.defaultJustificationLine ≠ .full)
    (ht : ∀ t ∈ [Tag.fo, .jl, .jp, .pt], d.multiCfg.supportedMultiTags t = true)
    (ms ms' : Str) (hl : ms.length ≤ 128) (hl' : ms'.length ≤ 128) (vs : List Value) (hv : Parses (slices ms) vs)
    (hv' : Parses (slices ms') ((ownDefaults d).tags ++ vs.map (spelled (ownDefaults d)))) (xs) :
    ShownAs d ms xs ↔ ShownAs d ms' xs := by
  have hv1 := C22_built_sign_valid p b d h
  exact C102_defaults d ⟨hw, hh, hz⟩ ⟨hw, hh, hf, hjp, hjl, hv1.2.2.2.2.1.fonts, hv1.2.2.2.2.2.1.graphics⟩ hv1.2.2.2.2.1 _ _
    hv1.2.2.2.2.2.1 (ownDefaults d) hf hjl hjp ht ms ms' (sizesOk_short d ms hl) (sizesOk_short d ms' hl') vs hv hv' xs

/-! ### cases -/

/-- defaults: centered in the middle, pages for 1 s with 0.5 s between them -/
def centeredDefaults : Defaults := ⟨8, .center, .middle, 10, 5⟩

/-- a message, and the same with these defaults written -/
def openMessage : Str := c!"A[np][pt20][jl4]B[nl][jl]C"
def writtenMessage : Str := c!"[fo8][jl3][jp3][pt10o5]A[np][pt20o5][jl4]B[nl][jl3]C"

def openValues : List Value := [.text c!"A", .newPage, .pageTime (some 20) none, .justificationLine (some .right), .text c!"B",
  .newLine none, .justificationLine none, .text c!"C"]

-- the hypotheses of C102_defaults, and what it tells
example : ∃ xs, xs.length = 4 ∧ Spec.Yields (withDefaults fullDms centeredDefaults) openMessage xs ∧
    Spec.Yields fullDms writtenMessage xs := by
  obtain ⟨xs, hx, hn, hl⟩ := summary_noError (d := withDefaults fullDms centeredDefaults) (ms := openMessage)
    (l := [(true, 60, 30, 10), (false, 60, 30, 5), (true, 60, 30, 20), (false, 60, 30, 5)]) (by decide +kernel)
  have hs : Parses (slices openMessage) openValues := by
    rw [show slices openMessage = [c!"A", c!"[np]", c!"[pt20]", c!"[jl4]", c!"B", c!"[nl]", c!"[jl]", c!"C"] by decide +kernel]
    exact .cons (by decide +kernel) (.cons (by decide +kernel) (.cons (by decide +kernel) (.cons (by decide +kernel)
      (.cons (by decide +kernel) (.cons (by decide +kernel) (.cons (by decide +kernel) (.cons (by decide +kernel) .nil)))))))
  have hs' : Parses (slices writtenMessage) (centeredDefaults.tags ++ openValues.map (spelled centeredDefaults)) := by
    rw [show slices writtenMessage = [c!"[fo8]", c!"[jl3]", c!"[jp3]", c!"[pt10o5]", c!"A", c!"[np]", c!"[pt20o5]", c!"[jl4]",
      c!"B", c!"[nl]", c!"[jl3]", c!"C"] by decide +kernel]
    exact .cons (by decide +kernel) (.cons (by decide +kernel) (.cons (by decide +kernel) (.cons (by decide +kernel)
      (.cons (by decide +kernel) (.cons (by decide +kernel) (.cons (by decide +kernel) (.cons (by decide +kernel)
      (.cons (by decide +kernel) (.cons (by decide +kernel) (.cons (by decide +kernel) (.cons (by decide +kernel)
      .nil)))))))))))
  have hv1 := C22_built_sign_valid .checked _ _ fullDms_built
  have key := (C102_defaults fullDms ⟨by decide +kernel, by decide +kernel, by decide +kernel⟩
    ⟨by decide +kernel, by decide +kernel, by decide +kernel, by decide, ⟨by decide, by decide⟩, hv1.2.2.2.2.1.fonts,
      hv1.2.2.2.2.2.1.graphics⟩ hv1.2.2.2.2.1 _ _ hv1.2.2.2.2.2.1 centeredDefaults (by decide) ⟨by decide, by decide⟩ (by decide)
    (by decide +kernel) openMessage writtenMessage (sizesOk_short _ _ (by decide +kernel))
    (sizesOk_short _ _ (by decide +kernel)) openValues hs hs' xs).1 ⟨hx, hn⟩
  exact ⟨xs, hl, hx, key.1⟩

-- without the tags, the pages are others
example : summary fullDms openMessage = some [(true, some (60, 30, 30)), (true, some (60, 30, 20))] := by decide +kernel

end Ntcip
