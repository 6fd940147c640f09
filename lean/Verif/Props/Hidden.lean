import Verif.Spec.Hidden
import Verif.Props.Order
import Verif.Props.Inset
/-
C110: drawings that are painted over can be left out.
-/
namespace Ntcip
open Spec Tests

variable {d : Dms} {x : Value}

/-- a hidden drawing is left out -/
inductive Del (d : Dms) (x : Value) : List Value → List Value → Prop
  | here {r} : Hidden d x r → Del d x (x :: r) r
  | cons {v a b} : Del d x a b → Del d x (v :: a) (v :: b)

theorem del_at {post} (h : Hidden d x post) (pre : List Value) : Del d x (pre ++ x :: post) (pre ++ post) := by
  induction pre with
  | nil => exact .here h
  | cons v pre ih => exact .cons ih

theorem del_drawing {a b} (h : Del d x a b) : isDrawing x = true := by
  induction h with
  | here h => exact h.1
  | cons _ ih => exact ih

theorem del_mem {a b} (h : Del d x a b) {v : Value} : v ∈ a ↔ v = x ∨ v ∈ b := by
  induction h with
  | here _ => simp
  | cons _ ih => simp only [List.mem_cons, ih]; exact or_left_comm

theorem del_settings {a b} (h : Del d x a b) : ∀ s : Settings,
    a.foldl (Settings.apply d) s = b.foldl (Settings.apply d) s := by
  induction h with
  | here h => intro s; rw [List.foldl_cons, drawing_settings h.1]
  | cons _ ih => intro s; exact ih _

theorem del_text {a b} (h : Del d x a b) (t : TextAttr) :
    a.foldl (TextAttr.apply (signAttr d)) t = b.foldl (TextAttr.apply (signAttr d)) t := by
  have := congrArg Settings.text (del_settings h ⟨t, (signPage d).1, (signPage d).2⟩)
  rwa [settings_text, settings_text] at this

theorem del_spacing {a b} (h : Del d x a b) : ∀ sp, a.foldl spacingAfter sp = b.foldl spacingAfter sp := by
  induction h with
  | here h => intro sp; rw [List.foldl_cons, drawing_spacing h.1]
  | cons _ ih => intro s; exact ih _

theorem del_pieces {a b} (h : Del d x a b) : ∀ z t sp n bl, pieces z t sp n bl a = pieces z t sp n bl b := by
  induction h with
  | here h => intro z t sp n bl; rw [drawing_pieces h.1]
  | cons _ ih =>
    intro z t sp n bl
    unfold pieces
    exact congrArg _ (ih ..)

theorem del_numbers {a b} (h : Del d x a b) : ∀ z t n bl, numbers z t n bl a = numbers z t n bl b := by
  induction h with
  | here h => intro z t n bl; rw [drawing_numbers h.1]
  | cons _ ih =>
    intro z t n bl
    unfold numbers
    exact congrArg _ (ih ..)

theorem del_tidy {a b} (h : Del d x a b) : ∀ z t f bl, Tidy z t f bl a ↔ Tidy z t f bl b := by
  induction h with
  | here h => intro z t f bl; rw [drawing_tidy h.1]
  | cons _ ih =>
    intro z t f bl
    unfold Tidy
    exact and_congr Iff.rfl (ih ..)

theorem del_textDrawn {t sp rect a b u w} (h : Del d x a b) :
    TextDrawn d t sp rect a u w ↔ TextDrawn d t sp rect b u w := by
  unfold TextDrawn
  rw [← del_pieces h, ← del_numbers h, ← del_tidy h]

/-! ### the picture -/

theorem inSection_mem {y : Value} {r : List Value} (h : InSection y r) : y ∈ r := by
  induction h with
  | here => exact List.mem_cons_self ..
  | later _ _ _ ih => exact List.mem_cons_of_mem _ ih

theorem layered_hidden {y : Value} {r : List Value} {i j} (hy : y ∈ r) (hh : Hides d y i j) : ∀ {p u},
    Layered d d.vmsCfg.signWidthPixels.toNat d.vmsCfg.signHeightPixels.toNat p r i j u → u ≠ none := by
  induction r with
  | nil => cases hy
  | cons v r ih =>
    intro p u h
    cases h with
    | @cons _ _ _ _ _ o u h1 h2 =>
      rcases List.mem_cons.1 hy with rfl | hy
      · have := hh _ _ h1
        cases u <;> simp_all
      · have := ih hy h2
        cases u <;> simp_all

/-- a drawing that can be drawn has a layer -/
theorem canDraw_layer {W H : Nat} (hg : GraphicsOk W H d.graphicDefinition) (hr : InRange x) (hx : ValueOk d x) (w h p i j) :
    ∃ o, Layer d w h p x i j o := by
  by_cases h1 : ∃ r c, x = .colorRectangle r c
  · obtain ⟨r, c, rfl⟩ := h1
    by_cases hp : PixelIn w h r i j
    · exact ⟨_, .rect hp⟩
    · exact ⟨_, .offRect hp⟩
  · by_cases h2 : ∃ n pos, x = .graphic n pos
    · obtain ⟨n, pos, rfl⟩ := h2
      obtain ⟨_, g, hof, _, _⟩ := hx
      by_cases hp : InBox g (corner pos) i j
      · have hok := hg.graphics g hof.1 (by rw [hof.2.1]; have := hr.1; omega)
        obtain ⟨c, hc⟩ := valid_pixel _ _ g hok (i - (corner pos).1) (j - (corner pos).2)
          (by have := hp.1; have := hp.2.1; omega) (by have := hp.2.2.1; have := hp.2.2.2; omega)
        exact ⟨_, .graphic hof hp hc⟩
      · exact ⟨_, .offGraphic hof hp⟩
    · exact ⟨_, .other (fun r c e => h1 ⟨r, c, e⟩) fun n pos e => h2 ⟨n, pos, e⟩⟩

theorem del_layered {a b} (h : Del d x a b)
    (hl : ∀ p i j, ∃ o, Layer d d.vmsCfg.signWidthPixels.toNat d.vmsCfg.signHeightPixels.toNat p x i j o) : ∀ {p i j o},
    Layered d d.vmsCfg.signWidthPixels.toNat d.vmsCfg.signHeightPixels.toNat p a i j o ↔
    Layered d d.vmsCfg.signWidthPixels.toNat d.vmsCfg.signHeightPixels.toNat p b i j o := by
  induction h with
  | @here r h =>
    have key : ∀ {p i j o u}, Layer d d.vmsCfg.signWidthPixels.toNat d.vmsCfg.signHeightPixels.toNat p x i j o →
        Layered d d.vmsCfg.signWidthPixels.toNat d.vmsCfg.signHeightPixels.toNat p r i j u → u.or o = u := by
      intro p i j o u h1 h2
      cases o with
      | none => simp
      | some c =>
        obtain ⟨y, hy, hh⟩ := h.2 i j ⟨_, _, h1⟩
        have := layered_hidden (inSection_mem hy) hh h2
        cases u <;> simp_all
    intro p i j o
    constructor
    · intro hc
      cases hc with
      | cons h1 h2 =>
        rw [drawing_colors h.1] at h2
        rw [key h1 h2]
        exact h2
    · intro hc
      obtain ⟨ox, h1⟩ := hl p i j
      rw [← key h1 hc]
      exact .cons h1 (by rw [drawing_colors h.1]; exact hc)
  | @cons v a b _ ih =>
    intro p i j o
    constructor
    · intro hc
      cases hc with
      | cons h1 h2 => exact .cons h1 (ih.1 h2)
    · intro hc
      cases hc with
      | cons h1 h2 => exact .cons h1 (ih.2 h2)

/-! ### text rectangles and pages -/

inductive DelS (d : Dms) (x : Value) :
    List Value → List (Rectangle × List Value) → List Value → List (Rectangle × List Value) → Prop
  | first {a b more} : Del d x a b → DelS d x a more b more
  | later {a r us us' more more'} : DelS d x us more us' more' → DelS d x a ((r, us) :: more) a ((r, us') :: more')

theorem drawing_noRect {v : Value} (h : isDrawing v = true) : (∀ r, v ≠ .textRectangle r) ∧ v ≠ .newPage := by
  constructor
  · rintro r rfl; cases h
  · rintro rfl; cases h

theorem hidden_sections {r : List Value} (h : Hidden d x r) : Hidden d x (sections r).1 := by
  have keep : ∀ {y : Value} {r : List Value}, isDrawing y = true → InSection y r → InSection y (sections r).1 := by
    intro y r hy h
    induction h with
    | here => rw [sections_cons (drawing_noRect hy).1]; exact .here
    | later h1 h2 _ ih => rw [sections_cons h2]; exact .later h1 h2 ih
  refine ⟨h.1, fun i j hp => ?_⟩
  obtain ⟨y, hy, hh⟩ := h.2 i j hp
  refine ⟨y, keep ?_ hy, hh⟩
  cases hd : isDrawing y with
  | true => rfl
  | false =>
    refine absurd rfl (hh ⟨.legacy 0, .legacy 0⟩ none (.other ?_ ?_))
    · rintro r c rfl; cases hd
    · rintro n pos rfl; cases hd

theorem hidden_page {r p : List Value} {ps} (h : Hidden d x r) (hp : splitPages r = p :: ps) : Hidden d x p := by
  have keep : ∀ {y : Value} {r : List Value}, isDrawing y = true → InSection y r → ∀ {p ps}, splitPages r = p :: ps →
      InSection y p := by
    intro y r hy h
    induction h with
    | @here r =>
      intro p ps hp
      obtain ⟨q, qs, _, e⟩ := splitPages_cons (vs := r) (drawing_noRect hy).2
      rw [e] at hp
      cases hp
      exact .here
    | @later v r h1 h2 _ ih =>
      intro p ps hp
      obtain ⟨q, qs, e1, e⟩ := splitPages_cons (vs := r) h1
      rw [e] at hp
      cases hp
      exact .later h1 h2 (ih e1)
  refine ⟨h.1, fun i j hp' => ?_⟩
  obtain ⟨y, hy, hh⟩ := h.2 i j hp'
  refine ⟨y, keep ?_ hy hp, hh⟩
  cases hd : isDrawing y with
  | true => rfl
  | false =>
    refine absurd rfl (hh ⟨.legacy 0, .legacy 0⟩ none (.other ?_ ?_))
    · rintro r c rfl; cases hd
    · rintro n pos rfl; cases hd

theorem sections_del {a b} (h : Del d x a b) : DelS d x (sections a).1 (sections a).2 (sections b).1 (sections b).2 := by
  induction h with
  | @here r h =>
    rw [sections_cons (drawing_noRect h.1).1]
    exact .first (.here (hidden_sections h))
  | @cons v a b _ ih =>
    by_cases hr : ∃ r, v = .textRectangle r
    · obtain ⟨r, rfl⟩ := hr
      simp only [sections]
      exact .later ih
    · rw [sections_cons (fun r e => hr ⟨r, e⟩), sections_cons (fun r e => hr ⟨r, e⟩)]
      generalize (sections a).1 = a1, (sections a).2 = a2, (sections b).1 = b1, (sections b).2 = b2 at ih
      cases ih with
      | first h => exact .first (.cons h)
      | later h => exact .later h

theorem del_composed {bg t sp rect a more b more' u w} (h : DelS d x a more b more')
    (hl : ∀ p i j, ∃ o, Layer d d.vmsCfg.signWidthPixels.toNat d.vmsCfg.signHeightPixels.toNat p x i j o)
    (hu : u.width = d.vmsCfg.signWidthPixels.toNat ∧ u.height = d.vmsCfg.signHeightPixels.toNat) :
    Composed d bg t sp rect a more u w ↔ Composed d bg t sp rect b more' u w := by
  have gr : ∀ {p a b u w}, (u.width = d.vmsCfg.signWidthPixels.toNat ∧ u.height = d.vmsCfg.signHeightPixels.toNat) →
      Del d x a b → (GraphicsOn d p a u w ↔ GraphicsOn d p b u w) := by
    intro p a b u w hu h
    constructor
    · intro hg
      refine ⟨hg.width, hg.height, fun i j => ?_⟩
      obtain ⟨o, h1, h2⟩ := hg.px i j
      rw [hu.1, hu.2] at h1 ⊢
      exact ⟨o, (del_layered h hl).1 h1, h2⟩
    · intro hg
      refine ⟨hg.width, hg.height, fun i j => ?_⟩
      obtain ⟨o, h1, h2⟩ := hg.px i j
      rw [hu.1, hu.2] at h1 ⊢
      exact ⟨o, (del_layered h hl).2 h1, h2⟩
  induction h generalizing t sp rect u w with
  | first h =>
    constructor
    · intro hc
      cases hc with
      | last h1 h2 => exact .last ((gr hu h).1 h1) ((del_textDrawn h).1 h2)
      | next h1 h2 h3 =>
        refine .next ((gr hu h).1 h1) ((del_textDrawn h).1 h2) ?_
        rw [← del_text h, ← del_spacing h]
        exact h3
    · intro hc
      cases hc with
      | last h1 h2 => exact .last ((gr hu h).2 h1) ((del_textDrawn h).2 h2)
      | next h1 h2 h3 =>
        refine .next ((gr hu h).2 h1) ((del_textDrawn h).2 h2) ?_
        rw [del_text h, del_spacing h]
        exact h3
  | later _ ih =>
    constructor
    · intro hc
      cases hc with
      | next h1 h2 h3 =>
        refine .next h1 h2 ((ih ?_).1 h3)
        obtain ⟨_, _, _, _, _, hA, _⟩ := h2
        rw [hA.width, hA.height, h1.width, h1.height]
        exact hu
    · intro hc
      cases hc with
      | next h1 h2 h3 =>
        refine .next h1 h2 ((ih ?_).2 h3)
        obtain ⟨_, _, _, _, _, hA, _⟩ := h2
        rw [hA.width, hA.height, h1.width, h1.height]
        exact hu

theorem drawing_layout {v : Value} (h : isDrawing v = true) (z) : ¬ errors (LayoutFault d v) z := by
  rintro hz
  cases z with
  | panic => exact hz
  | error e =>
    have hz : isLayout v = true := hz.1
    cases v <;> first | (cases h; done) | (cases hz; done)

theorem drawing_background {v : Value} (h : isDrawing v = true) (z) : ¬ errors (BackgroundFault d v) z := by
  rintro hz
  cases z with
  | panic => exact hz
  | error e =>
    have hz : BackgroundFault d v e := hz
    cases v <;> first | (cases h; done) | (cases hz; done)

theorem del_rectsStops {n t sp rect a more b more'} (h : DelS d x a more b more') :
    Silent (rectsStops d n t sp rect a more) ↔ (∀ z, ¬ paintStop d x z) ∧ Silent (rectsStops d n t sp rect b more') := by
  have one : ∀ {t a b sp rect next}, Del d x a b → (Silent (rectStops d t sp rect a next) ↔
      (∀ z, ¬ paintStop d x z) ∧ Silent (rectStops d t sp rect b next)) := by
    intro t a b sp rect next h
    unfold rectStops
    simp only [silent_append, silent_map]
    have e : layoutOf d t sp rect a = layoutOf d t sp rect b := by unfold layoutOf; rw [del_pieces h]
    have hd := del_drawing h
    rw [e]
    constructor
    · rintro ⟨h1, h2, h3⟩
      exact ⟨h1 x ((del_mem h).2 (.inl rfl)), fun v hv => h1 v ((del_mem h).2 (.inr hv)),
        fun v hv => h2 v ((del_mem h).2 (.inr hv)), h3⟩
    · rintro ⟨h0, h1, h2, h3⟩
      refine ⟨fun v hv => ?_, fun v hv => ?_, h3⟩
      · rcases (del_mem h).1 hv with rfl | hv
        · exact h0
        · exact h1 v hv
      · rcases (del_mem h).1 hv with rfl | hv
        · exact drawing_layout hd
        · exact h2 v hv
  induction h generalizing n t sp rect with
  | @first a b more h =>
    cases more with
    | nil =>
      unfold rectsStops
      rw [silent_append, silent_append, one h, and_assoc]
    | cons q more =>
      obtain ⟨r, us⟩ := q
      unfold rectsStops
      rw [silent_append, silent_append, one h, and_assoc, del_text h, del_spacing h]
  | later _ ih =>
    unfold rectsStops
    rw [silent_append, silent_append, silent_cons, silent_cons]
    constructor
    · rintro ⟨h1, h2, h3⟩; exact ⟨(ih.1 h3).1, h1, h2, (ih.1 h3).2⟩
    · rintro ⟨h3, h1, h2, h4⟩; exact ⟨h1, h2, ih.2 ⟨h3, h4⟩⟩

theorem del_pageStops {t a b} (h : Del d x a b) :
    Silent (pageStops d t a) ↔ (∀ z, ¬ paintStop d x z) ∧ Silent (pageStops d t b) := by
  unfold pageStops
  rw [silent_append, silent_map, silent_append, silent_map, del_rectsStops (sections_del h)]
  constructor
  · rintro ⟨h1, h2, h3⟩
    exact ⟨h2, fun v hv => h1 v ((del_mem h).2 (.inr hv)), h3⟩
  · rintro ⟨h2, h1, h3⟩
    refine ⟨fun v hv => ?_, h2, h3⟩
    rcases (del_mem h).1 hv with rfl | hv
    · exact drawing_background (del_drawing h)
    · exact h1 v hv

inductive DelP (d : Dms) (x : Value) : List (List Value) → List (List Value) → Prop
  | here {p p' ps} : Del d x p p' → DelP d x (p :: ps) (p' :: ps)
  | later {p ps ps'} : DelP d x ps ps' → DelP d x (p :: ps) (p :: ps')

theorem splitPages_del {a b} (h : Del d x a b) : DelP d x (splitPages a) (splitPages b) := by
  induction h with
  | @here r h =>
    obtain ⟨p, ps, hp, e⟩ := splitPages_cons (vs := r) (drawing_noRect h.1).2
    rw [e, hp]
    exact .here (.here (hidden_page h hp))
  | @cons v a b _ ih =>
    by_cases hv : v = .newPage
    · subst hv
      simp only [splitPages, if_true]
      exact .later ih
    · obtain ⟨p, ps, e1, e2⟩ := splitPages_cons (vs := a) hv
      obtain ⟨p', ps', e3, e4⟩ := splitPages_cons (vs := b) hv
      rw [e2, e4]
      rw [e1, e3] at ih
      cases ih with
      | here h => exact .here (.cons h)
      | later h => exact .later h

theorem del_pagesQuiet {ps ps'} (h : DelP d x ps ps') : ∀ {t},
    PagesQuiet d t ps ↔ (∀ z, ¬ paintStop d x z) ∧ PagesQuiet d t ps' := by
  induction h with
  | here h => intro t; rw [PagesQuiet, PagesQuiet, del_pageStops h, del_text h, and_assoc]
  | later _ ih => intro t; rw [PagesQuiet, PagesQuiet, ih]; exact and_left_comm

theorem del_pictured {ps ps'} (h : DelP d x ps ps')
    (hl : ∀ p i j, ∃ o, Layer d d.vmsCfg.signWidthPixels.toNat d.vmsCfg.signHeightPixels.toNat p x i j o) :
    ∀ {t p xs}, Pictured d t p xs ps ↔ Pictured d t p xs ps' := by
  have last : ∀ {a more b more' rect}, DelS d x a more b more' → lastRect d rect more' = lastRect d rect more := by
    intro a more b more' rect h
    induction h generalizing rect with
    | first _ => rfl
    | later _ ih => simp only [lastRect]; exact ih
  induction h with
  | @here p p' ps h =>
    intro t q xs
    obtain ⟨times, bg⟩ := q
    unfold Pictured
    have hsec := sections_del h
    have e1 : pageTimes (signPage d).1 times p' = pageTimes (signPage d).1 times p := by
      have := congrArg Settings.times (del_settings h ⟨t, times, bg⟩)
      rw [settings_times, settings_times] at this
      exact this.symm
    have e2 : background (signPage d).2 bg p' = background (signPage d).2 bg p := by
      have := congrArg Settings.bg (del_settings h ⟨t, times, bg⟩)
      rw [settings_bg, settings_bg] at this
      exact this.symm
    simp only []
    rw [e1, e2, last hsec, ← del_text h]
    constructor
    · rintro ⟨raster, more, k1, k2, k3⟩
      exact ⟨raster, more, (del_composed hsec hl ⟨rfl, rfl⟩).1 k1, k2, k3⟩
    · rintro ⟨raster, more, k1, k2, k3⟩
      exact ⟨raster, more, (del_composed hsec hl ⟨rfl, rfl⟩).2 k1, k2, k3⟩
  | later _ ih =>
    intro t q xs
    unfold Pictured
    simp only [ih]

/-- a drawing does not stop a page exactly if the sign can draw it -/
theorem paint_quiet_iff (hd : SizeOk d) (hu : UniqueNumbers (fun g : Graphic => g.number.toNat) d.graphicDefinition)
    (hr : InRange x) (hx : isDrawing x = true) : (∀ z, ¬ paintStop d x z) ↔ ValueOk d x := by
  have hun : unimplemented x = false := by cases x <;> first | rfl | cases hx
  constructor
  · intro h
    have hp : ¬ PaintPanic d x := h .panic
    have hf : ∀ e, ¬ PaintFault d x e := fun e he => h (.error e) ⟨hp, he⟩
    cases x
    case colorRectangle r c => exact Classical.byContradiction fun hn => hf _ (.value rfl hn)
    case graphic n pos =>
      cases e : GraphicTable.graphic d.graphicDefinition n with
      | none =>
        refine absurd (.missing fun g hm => ?_) (hf (.graphicNotDefined n))
        unfold GraphicTable.graphic at e
        have := List.find?_eq_none.1 e g hm
        simpa using this
      | some g =>
        have e' := e
        unfold GraphicTable.graphic at e'
        have hn : g.number = n := by simpa using List.find?_some e'
        have hid : ∀ a b id, pos = some (a, b, some id) → id = g.versionId := by
          rintro a b id rfl
          exact Classical.byContradiction fun hne => hf _ (.version e hne)
        have hin : (corner pos).1 + g.width.toNat ≤ d.vmsCfg.signWidthPixels.toNat ∧
            (corner pos).2 + g.height.toNat ≤ d.vmsCfg.signHeightPixels.toNat :=
          Classical.byContradiction fun hno => hf (.other "Graphic too big") (.big e hid (by omega))
        exact ⟨fun k hk => (by cases hk), g, ⟨List.mem_of_find?_eq_some e', hn, hid⟩, hin⟩
    all_goals cases hx
  · intro h
    cases x
    case colorRectangle r c =>
      refine paintStop_none rfl ?_ (paint_noFault rfl h)
      rintro r' c' ⟨⟩
      have hi := h.2
      have hw := hd.width
      have hh := hd.height
      have a1 := hi.x
      have a2 := hi.y
      have a3 := hi.right
      have a4 := hi.bottom
      unfold extWidth at a3
      unfold extHeight at a4
      constructor
      · split at a3 <;> omega
      · split at a4 <;> omega
    case graphic n pos =>
      obtain ⟨_, g, hof, h1, h2⟩ := h
      have hn : n ≠ 0 := by rintro rfl; have := hr.1; simp at this
      exact paintStop_none rfl (by simp) (graphic_noFault (graphic_found hu hof hn) hof.2.2 h1 h2)
    all_goals cases hx

/-- **C110** A color rectangle or graphic whose pixels are all painted again, by drawings after it in the same text
rectangle, cannot be seen: a message is shown exactly if the sign can draw it, and the message without it is shown, and
all pages are the same. -/
theorem C110_hidden (d : Dms) (hd : SizeOk d) (hok : SignOk d) (hf : FontsOk d.fontDefinition) (W H : Nat)
    (hg : GraphicsOk W H d.graphicDefinition) (ms ms' : Str) (hs : SizesOk d ms) (hs' : SizesOk d ms')
    (pre post : List Value) (x : Value) (hv : Parses (slices ms) (pre ++ x :: post)) (hv' : Parses (slices ms') (pre ++ post))
    (hx : Hidden d x post) (xs) : ShownAs d ms xs ↔ CanDraw d x ∧ ShownAs d ms' xs := by
  have hr : InRange x := parses_inRange hv (slices_items ms) x (by simp)
  have he := del_at hx pre
  have hp := splitPages_del he
  unfold ShownAs
  rw [shown_iff d hd hok hf W H hg ms hs hv xs, shown_iff d hd hok hf W H hg ms' hs' hv' xs,
    del_pagesQuiet hp, paint_quiet_iff hd hg.numbers hr hx.1]
  have ht : TagsOk d (pre ++ x :: post) ↔
      (∀ t, x.tag = some t → d.multiCfg.supportedMultiTags t = true) ∧ TagsOk d (pre ++ post) := by
    unfold TagsOk
    constructor
    · intro h
      exact ⟨h x (by simp), fun v hv => h v ((del_mem he).2 (.inr hv))⟩
    · rintro ⟨h1, h2⟩ v hv
      rcases (del_mem he).1 hv with rfl | hv
      · exact h1
      · exact h2 v hv
  rw [ht]
  constructor
  · rintro ⟨⟨⟨h1, h2⟩, h3, h4⟩, h5⟩
    exact ⟨⟨h1, h3⟩, ⟨h2, h4⟩, (del_pictured hp (canDraw_layer hg hr h3 _ _)).1 h5⟩
  · rintro ⟨⟨h1, h3⟩, ⟨h2, h4⟩, h5⟩
    exact ⟨⟨⟨h1, h2⟩, h3, h4⟩, (del_pictured hp (canDraw_layer hg hr h3 _ _)).2 h5⟩

/-- **C110 (built)** the same on a sign made by the builder, for messages of at most 128 characters -/
theorem C110_built (p : Profile) (b : DmsBuilder) (d : Dms) (h : b.build p = .ok d)
    (hw : d.vmsCfg.signWidthPixels.toNat < 65535) (hh : d.vmsCfg.signHeightPixels.toNat < 65535)
    (hz : ¬ (d.vmsCfg.signWidthPixels.toNat = 0 ∧ d.vmsCfg.signHeightPixels.toNat = 0))
    (hf : 1 ≤ d.multiCfg.defaultFont.toNat)
    (hjp : d.multiCfg.defaultJustificationPage ≠ .other)
    (hjl : d.multiCfg.defaultJustificationLine ≠ .other ∧ d.multiCfg.defaultJustificationLine ≠ .full)
    (ms ms' : Str) (hl : ms.length ≤ 128) (hl' : ms'.length ≤ 128) (pre post : List Value) (x : Value)
    (hv : Parses (slices ms) (pre ++ x :: post)) (hv' : Parses (slices ms') (pre ++ post)) (hx : Hidden d x post) (xs) :
    ShownAs d ms xs ↔ CanDraw d x ∧ ShownAs d ms' xs := by
  have hv1 := C22_built_sign_valid p b d h
  exact C110_hidden d ⟨hw, hh, hz⟩ ⟨hw, hh, hf, hjp, hjl, hv1.2.2.2.2.1.fonts, hv1.2.2.2.2.2.1.graphics⟩ hv1.2.2.2.2.1 _ _
    hv1.2.2.2.2.2.1 ms ms' (sizesOk_short d ms hl) (sizesOk_short d ms' hl') pre post x hv hv' hx xs

/-- a color rectangle inside of one of the color rectangles after it is hidden -/
theorem C110_rectangle {r r' : Rectangle} {c c' : Color} {post : List Value} (hin : InSection (.colorRectangle r' c') post)
    (h : ∀ i j, PixelIn d.vmsCfg.signWidthPixels.toNat d.vmsCfg.signHeightPixels.toNat r i j →
      PixelIn d.vmsCfg.signWidthPixels.toNat d.vmsCfg.signHeightPixels.toNat r' i j) :
    Hidden d (.colorRectangle r c) post := by
  refine ⟨rfl, fun i j ⟨p, k, hp⟩ => ⟨_, hin, fun q o ho => ?_⟩⟩
  cases hp with
  | rect hp =>
    cases ho with
    | rect _ => simp
    | offRect hn => exact absurd (h i j hp) hn
    | other h1 _ => exact absurd rfl (h1 _ _)

/-- a color rectangle of the whole sign hides all drawings before it -/
theorem C110_whole {x : Value} {c : Color} {post : List Value} (hx : isDrawing x = true)
    (hfit : ∀ i j, Paints d x i j → i < d.vmsCfg.signWidthPixels.toNat ∧ j < d.vmsCfg.signHeightPixels.toNat)
    (hin : InSection (.colorRectangle ⟨1, 1, 0, 0⟩ c) post) : Hidden d x post := by
  refine ⟨hx, fun i j hp => ⟨_, hin, fun q o ho => ?_⟩⟩
  obtain ⟨h1, h2⟩ := hfit i j hp
  cases ho with
  | rect _ => simp
  | offRect hn =>
    refine absurd ⟨?_, ?_, ?_, ?_⟩ hn <;> simp [extWidth, extHeight] <;> omega
  | other h1 _ => exact absurd rfl (h1 _ _)

/-- a message with a color rectangle inside of a later one -/
def coveredMsg : Str := c!"[cr2,2,3,3,0,255,0]A[cr1,1,5,5,0,0,255]"
/-- the same without it -/
def uncoveredMsg : Str := c!"A[cr1,1,5,5,0,0,255]"

-- the two messages are shown alike
example (xs) : ShownAs fullDms coveredMsg xs ↔ ShownAs fullDms uncoveredMsg xs := by
  have key := C110_built .checked _ fullDms fullDms_built (by decide +kernel)
    (by decide +kernel) (by decide +kernel) (by decide +kernel) (by decide) ⟨by decide, by decide⟩
    coveredMsg uncoveredMsg (by decide +kernel) (by decide +kernel) []
    [.text c!"A", .colorRectangle ⟨1, 1, 5, 5⟩ (.rgb 0 0 255)] (.colorRectangle ⟨2, 2, 3, 3⟩ (.rgb 0 255 0)) ?_ ?_ ?_ xs
  · rw [key, and_iff_right]
    have e1 : fullDms.vmsCfg.signWidthPixels.toNat = 60 := by decide +kernel
    have e2 : fullDms.vmsCfg.signHeightPixels.toNat = 30 := by decide +kernel
    refine ⟨fun t ht => ?_, fun k hk => ?_, ?_⟩
    · cases ht; decide +kernel
    · cases hk
      rw [show fullDms.multiCfg.colorScheme = .color24Bit by decide +kernel]
      trivial
    · show InsideRect _ _ _
      rw [e1, e2]
      refine ⟨?_, ?_, ?_, ?_, ?_, ?_⟩ <;> decide +kernel
  · rw [show slices coveredMsg = [c!"[cr2,2,3,3,0,255,0]", c!"A", c!"[cr1,1,5,5,0,0,255]"] by decide +kernel]
    exact .cons (by decide +kernel) (.cons (by decide +kernel) (.cons (by decide +kernel) .nil))
  · rw [show slices uncoveredMsg = [c!"A", c!"[cr1,1,5,5,0,0,255]"] by decide +kernel]
    exact .cons (by decide +kernel) (.cons (by decide +kernel) .nil)
  · refine C110_rectangle (.later (by simp) (by simp) .here) fun i j h => ?_
    simp only [PixelIn, extWidth, extHeight] at h ⊢
    simp at h ⊢
    omega

example : summary fullDms coveredMsg = summary fullDms uncoveredMsg ∧
    (summary fullDms coveredMsg).map List.length = some 1 := by decide +kernel

-- a color rectangle that is not covered can be seen
example : pixels fullDms c!"[cr2,2,3,3,0,255,0][cr1,1,3,3,0,0,255]" [(3, 3)] ≠
    pixels fullDms c!"[cr1,1,3,3,0,0,255]" [(3, 3)] := by decide +kernel

-- a color rectangle is not hidden by those before it
example : pixels fullDms c!"[cr1,1,5,5,0,0,255][cr2,2,3,3,0,255,0]" [(3, 3)] ≠
    pixels fullDms c!"[cr1,1,5,5,0,0,255]" [(3, 3)] := by decide +kernel

-- a hidden color rectangle off the sign is still an error
example : (summary fullDms c!"[cr1,1,0,0,0,255,0]").isSome = true ∧
    summary fullDms c!"[cr61,1,1,1,0,255,0][cr1,1,0,0,0,255,0]" = none ∧
    renderPanics fullDms c!"[cr61,1,1,1,0,255,0][cr1,1,0,0,0,255,0]" = false := by decide +kernel

end Ntcip
