import Verif.Spec.Order
import Verif.Props.Style
/-
C106: the order of drawings and texts does not matter.
-/
namespace Ntcip
open Spec Tests

variable {d : Dms}

theorem free_symm {x y : Value} (h : Free d x y) : Free d y x := by
  rcases h with h | h | ⟨h1, h2, h3⟩
  · exact .inr (.inl h)
  · exact .inl h
  · exact .inr (.inr ⟨h2, h1, fun i j h => h3 i j ⟨h.2, h.1⟩⟩)

/-- two values in a row are exchanged -/
inductive Exch (d : Dms) : List Value → List Value → Prop
  | here {x y r} : Free d x y → Exch d (x :: y :: r) (y :: x :: r)
  | cons {v a b} : Exch d a b → Exch d (v :: a) (v :: b)

theorem exch_at {x y post} (h : Free d x y) (pre : List Value) : Exch d (pre ++ x :: y :: post) (pre ++ y :: x :: post) := by
  induction pre with
  | nil => exact .here h
  | cons v pre ih => exact .cons ih

theorem exch_mem {a b} (h : Exch d a b) {v : Value} (hv : v ∈ b) : v ∈ a := by
  induction h with
  | here _ => simp only [List.mem_cons] at hv ⊢; grind
  | cons _ ih =>
    rcases List.mem_cons.1 hv with rfl | hv
    · exact List.mem_cons_self ..
    · exact List.mem_cons_of_mem _ (ih hv)

/-! ### drawings have no effect on text and attributes -/

theorem drawing_attr {v : Value} (h : isDrawing v = true) (a t : TextAttr) : TextAttr.apply a t v = t := by
  cases v <;> first | rfl | cases h

theorem drawing_settings {v : Value} (h : isDrawing v = true) (s : Settings) : s.apply d v = s := by
  cases v <;> first | rfl | cases h

theorem drawing_spacing {v : Value} (h : isDrawing v = true) (sp) : spacingAfter sp v = sp := by
  cases v <;> first | rfl | cases h

theorem drawing_pieces {v : Value} (h : isDrawing v = true) (a t sp n b ws) :
    pieces a t sp n b (v :: ws) = pieces a t sp n b ws := by
  cases v <;> first | rfl | cases h

theorem drawing_numbers {v : Value} (h : isDrawing v = true) (a t n b ws) :
    numbers a t n b (v :: ws) = numbers a t n b ws := by
  cases v <;> first | rfl | cases h

theorem drawing_tidy {v : Value} (h : isDrawing v = true) (a t f b ws) :
    Tidy a t f b (v :: ws) ↔ Tidy a t f b ws := by
  cases v <;> first | (simp [Tidy, InOrder, TextAttr.apply, freshAfter, blankAfter]; done) | cases h

theorem drawing_colors {v : Value} (h : isDrawing v = true) (p : Colors) : p.apply d v = p := by
  cases v <;> first | rfl | cases h

/-- one of two values that can be exchanged is a drawing -/
theorem free_drawing {x y : Value} (h : Free d x y) : isDrawing x = true ∨ isDrawing y = true := by
  rcases h with h | h | h
  · exact .inl h.1
  · exact .inr h.1
  · exact .inl h.1

theorem exch_settings {a b} (h : Exch d a b) : ∀ s : Settings,
    a.foldl (Settings.apply d) s = b.foldl (Settings.apply d) s := by
  induction h with
  | here h =>
    intro s
    simp only [List.foldl_cons]
    rcases free_drawing h with h | h
    · rw [drawing_settings h, drawing_settings h]
    · rw [drawing_settings h, drawing_settings h]
  | cons _ ih => intro s; exact ih _

theorem exch_text {a b} (h : Exch d a b) (t : TextAttr) :
    a.foldl (TextAttr.apply (signAttr d)) t = b.foldl (TextAttr.apply (signAttr d)) t := by
  have := congrArg Settings.text (exch_settings h ⟨t, (signPage d).1, (signPage d).2⟩)
  rwa [settings_text, settings_text] at this

theorem exch_spacing {a b} (h : Exch d a b) : ∀ sp, a.foldl spacingAfter sp = b.foldl spacingAfter sp := by
  induction h with
  | here h =>
    intro sp
    simp only [List.foldl_cons]
    rcases free_drawing h with h | h
    · rw [drawing_spacing h, drawing_spacing h]
    · rw [drawing_spacing h, drawing_spacing h]
  | cons _ ih => intro s; exact ih _

theorem exch_pieces {a b} (h : Exch d a b) : ∀ z t sp n bl, pieces z t sp n bl a = pieces z t sp n bl b := by
  induction h with
  | @here x y r h =>
    intro z t sp n bl
    rcases free_drawing h with h | h
    · rw [drawing_pieces h, pieces, pieces, drawing_pieces h]
    · rw [drawing_pieces h, pieces, drawing_pieces h, pieces]
  | cons _ ih =>
    intro z t sp n bl
    unfold pieces
    exact congrArg _ (ih ..)

theorem exch_numbers {a b} (h : Exch d a b) : ∀ z t n bl, numbers z t n bl a = numbers z t n bl b := by
  induction h with
  | @here x y r h =>
    intro z t n bl
    rcases free_drawing h with h | h
    · rw [drawing_numbers h, numbers, numbers, drawing_numbers h]
    · rw [drawing_numbers h, numbers, drawing_numbers h, numbers]
  | cons _ ih =>
    intro z t n bl
    unfold numbers
    exact congrArg _ (ih ..)

theorem exch_tidy {a b} (h : Exch d a b) : ∀ z t f bl, Tidy z t f bl a ↔ Tidy z t f bl b := by
  induction h with
  | @here x y r h =>
    intro z t f bl
    rcases free_drawing h with h | h
    · rw [drawing_tidy h, Tidy, Tidy, drawing_tidy h]
    · rw [drawing_tidy h, Tidy, drawing_tidy h, Tidy]
  | cons _ ih =>
    intro z t f bl
    unfold Tidy
    exact and_congr Iff.rfl (ih ..)

theorem exch_textDrawn {t sp rect a b x y} (h : Exch d a b) (hd : TextDrawn d t sp rect a x y) :
    TextDrawn d t sp rect b x y := by
  unfold TextDrawn at hd ⊢
  rw [← exch_pieces h, ← exch_numbers h, ← exch_tidy h]
  exact hd

/-! ### the picture -/

theorem layer_none {W H p v i j o} (h : Layer d W H p v i j o) (hv : isDrawing v = false) : o = none := by
  cases h with
  | other _ _ => rfl
  | _ => cases hv

theorem layer_passes {W H p x y i j o} (h : Layer d W H p x i j o) (hp : Passes x y) :
    Layer d W H (p.apply d y) x i j o := by
  obtain ⟨h1, h2, _, _, h3⟩ := hp
  cases h with
  | rect h => exact .rect h
  | offRect h => exact .offRect h
  | @graphic n pos g c i j a1 a2 a3 =>
    have : p.apply d y = p := by
      have := h3 _ _ rfl
      cases y <;> first | rfl | exact absurd rfl (this _).1 | exact absurd rfl (this _).2
    rw [this]
    exact .graphic a1 a2 a3
  | offGraphic a1 a2 => exact .offGraphic a1 a2
  | other _ _ => exact .other ‹_› ‹_›

theorem layer_unpasses {W H p x y i j o} (h : Layer d W H (p.apply d y) x i j o) (hp : Passes x y) :
    Layer d W H p x i j o := by
  obtain ⟨h1, h2, _, _, h3⟩ := hp
  cases h with
  | rect h => exact .rect h
  | offRect h => exact .offRect h
  | @graphic n pos g c i j a1 a2 a3 =>
    have : p.apply d y = p := by
      have := h3 _ _ rfl
      cases y <;> first | rfl | exact absurd rfl (this _).1 | exact absurd rfl (this _).2
    rw [this]
    exact .graphic a1 a2 a3
  | offGraphic a1 a2 => exact .offGraphic a1 a2
  | other _ _ => exact .other ‹_› ‹_›

/-- a value that is no drawing, in any colors -/
theorem layer_plain {W H p q v i j o} (h : Layer d W H p v i j o) (hv : isDrawing v = false) :
    Layer d W H q v i j o := by
  cases h with
  | other h1 h2 => exact .other h1 h2
  | _ => cases hv

theorem exch_layered {a b} (h : Exch d a b) : ∀ {p i j o},
    Layered d d.vmsCfg.signWidthPixels.toNat d.vmsCfg.signHeightPixels.toNat p a i j o →
    Layered d d.vmsCfg.signWidthPixels.toNat d.vmsCfg.signHeightPixels.toNat p b i j o := by
  induction h with
  | @here x y r h =>
    intro p i j o hl
    cases hl with
    | @cons _ _ _ _ _ ox _ h1 h2 =>
      cases h2 with
      | @cons _ _ _ _ _ oy u h2 h3 =>
        rcases h with hp | hp | ⟨hx, hy, hd⟩
        · -- a drawing before
          have ey := layer_none h2 hp.2.1
          subst ey
          rw [drawing_colors hp.1] at h2 h3
          have := Layered.cons (layer_plain (q := p) h2 hp.2.1) (.cons (layer_passes h1 hp) (by
            rw [drawing_colors hp.1]; exact h3))
          simp only [Option.or_none] at this ⊢
          exact this
        · have ex := layer_none h1 hp.2.1
          subst ex
          rw [drawing_colors hp.1] at h3
          have := Layered.cons (layer_unpasses h2 hp) (.cons (layer_plain (q := p.apply d y) h1 hp.2.1) (by
            rw [drawing_colors hp.1]; exact h3))
          simp only [Option.or_none] at this ⊢
          exact this
        · rw [drawing_colors hx] at h2 h3
          rw [drawing_colors hy] at h3
          have := Layered.cons h2 (.cons (v := x) (p := p.apply d y) (by rw [drawing_colors hy]; exact h1) (by
            rw [drawing_colors hy, drawing_colors hx]; exact h3))
          have e : (u.or oy).or ox = (u.or ox).or oy := by
            cases u with
            | some _ => rfl
            | none =>
              cases ox with
              | none => cases oy <;> rfl
              | some c =>
                cases oy with
                | none => rfl
                | some c' => exact absurd ⟨⟨_, _, h1⟩, ⟨_, _, h2⟩⟩ (hd i j)
          rw [e]
          exact this
  | @cons v a b _ ih =>
    intro p i j o hl
    cases hl with
    | cons h1 h2 => exact .cons h1 (ih h2)

/-! ### text rectangles and pages -/

/-- two values exchanged in one of the text rectangles of a page -/
inductive ExchS (d : Dms) : List Value → List (Rectangle × List Value) → List Value → List (Rectangle × List Value) → Prop
  | first {a b more} : Exch d a b → ExchS d a more b more
  | later {a r us us' more more'} : ExchS d us more us' more' → ExchS d a ((r, us) :: more) a ((r, us') :: more')

theorem free_noRect {x y : Value} (h : Free d x y) : (∀ r, x ≠ .textRectangle r) ∧ (∀ r, y ≠ .textRectangle r) ∧
    x ≠ .newPage ∧ y ≠ .newPage := by
  have dr : ∀ {v : Value}, isDrawing v = true → (∀ r, v ≠ .textRectangle r) ∧ v ≠ .newPage := by
    intro v h
    constructor
    · rintro r rfl; cases h
    · rintro rfl; cases h
  rcases h with h | h | h
  · exact ⟨(dr h.1).1, h.2.2.2.1, (dr h.1).2, h.2.2.1⟩
  · exact ⟨h.2.2.2.1, (dr h.1).1, h.2.2.1, (dr h.1).2⟩
  · exact ⟨(dr h.1).1, (dr h.2.1).1, (dr h.1).2, (dr h.2.1).2⟩

theorem sections_exch {a b} (h : Exch d a b) : ExchS d (sections a).1 (sections a).2 (sections b).1 (sections b).2 := by
  induction h with
  | @here x y r h =>
    obtain ⟨h1, h2, _, _⟩ := free_noRect h
    rw [sections_cons h1, sections_cons h2, sections_cons h2, sections_cons h1]
    exact .first (.here h)
  | @cons v a b _ ih =>
    by_cases hr : ∃ r, v = .textRectangle r
    · obtain ⟨r, rfl⟩ := hr
      simp only [sections]
      exact .later ih
    · rw [sections_cons (fun r e => hr ⟨r, e⟩), sections_cons (fun r e => hr ⟨r, e⟩)]
      generalize (sections a).1 = a1, (sections a).2 = a2, (sections b).1 = b1, (sections b).2 = b2 at ih
      cases ih with
      | first h => exact .first (.cons h)
      | later h => exact .later h

theorem exch_composed {bg t sp rect a more b more' x y} (h : ExchS d a more b more')
    (hx : x.width = d.vmsCfg.signWidthPixels.toNat ∧ x.height = d.vmsCfg.signHeightPixels.toNat) :
    Composed d bg t sp rect a more x y → Composed d bg t sp rect b more' x y := by
  have gr : ∀ {p a b x y}, (x.width = d.vmsCfg.signWidthPixels.toNat ∧ x.height = d.vmsCfg.signHeightPixels.toNat) →
      Exch d a b → GraphicsOn d p a x y → GraphicsOn d p b x y := by
    intro p a b x y hx h hg
    refine ⟨hg.width, hg.height, fun i j => ?_⟩
    obtain ⟨o, h1, h2⟩ := hg.px i j
    rw [hx.1, hx.2] at h1 ⊢
    exact ⟨o, exch_layered h h1, h2⟩
  induction h generalizing t sp rect x y with
  | first h =>
    intro hc
    cases hc with
    | last h1 h2 => exact .last (gr hx h h1) (exch_textDrawn h h2)
    | next h1 h2 h3 =>
      refine .next (gr hx h h1) (exch_textDrawn h h2) ?_
      rw [← exch_text h, ← exch_spacing h]
      exact h3
  | later _ ih =>
    intro hc
    cases hc with
    | next h1 h2 h3 =>
      refine .next h1 h2 (ih ?_ h3)
      obtain ⟨_, _, _, _, _, hA, _⟩ := h2
      rw [hA.width, hA.height, h1.width, h1.height]
      exact hx

theorem exch_rectsStops {n t sp rect a more b more'} (h : ExchS d a more b more') :
    Silent (rectsStops d n t sp rect a more) → Silent (rectsStops d n t sp rect b more') := by
  have one : ∀ {t a b sp rect next}, Exch d a b → Silent (rectStops d t sp rect a next) →
      Silent (rectStops d t sp rect b next) := by
    intro t a b sp rect next h hs
    unfold rectStops at hs ⊢
    simp only [silent_append, silent_map] at hs ⊢
    obtain ⟨h1, h2, h3, h4⟩ := hs
    refine ⟨fun v hv => h1 v (exch_mem h hv), fun v hv => h2 v (exch_mem h hv), h3, ?_⟩
    unfold layoutOf at h4 ⊢
    rw [← exch_pieces h]
    exact h4
  induction h generalizing n t sp rect with
  | @first a b more h =>
    intro hs
    cases more with
    | nil =>
      unfold rectsStops at hs ⊢
      rw [silent_append] at hs ⊢
      exact ⟨one h hs.1, hs.2⟩
    | cons x more =>
      obtain ⟨r, us⟩ := x
      unfold rectsStops at hs ⊢
      rw [silent_append] at hs ⊢
      rw [← exch_text h, ← exch_spacing h]
      exact ⟨one h hs.1, hs.2⟩
  | later _ ih =>
    intro hs
    unfold rectsStops at hs ⊢
    rw [silent_append, silent_cons] at hs ⊢
    exact ⟨hs.1, hs.2.1, ih hs.2.2⟩

theorem exch_pageStops {t a b} (h : Exch d a b) (hs : Silent (pageStops d t a)) : Silent (pageStops d t b) := by
  unfold pageStops at hs ⊢
  rw [silent_append, silent_map] at hs ⊢
  exact ⟨fun v hv => hs.1 v (exch_mem h hv), exch_rectsStops (sections_exch h) hs.2⟩

/-- two values exchanged in one of the pages -/
inductive ExchP (d : Dms) : List (List Value) → List (List Value) → Prop
  | here {p p' ps} : Exch d p p' → ExchP d (p :: ps) (p' :: ps)
  | later {p ps ps'} : ExchP d ps ps' → ExchP d (p :: ps) (p :: ps')

theorem splitPages_exch {a b} (h : Exch d a b) : ExchP d (splitPages a) (splitPages b) := by
  induction h with
  | @here x y r h =>
    obtain ⟨_, _, h1, h2⟩ := free_noRect h
    obtain ⟨p, ps, hp⟩ : ∃ p ps, splitPages r = p :: ps := by
      cases h : splitPages r with
      | nil => exact absurd h (splitPages_ne_nil _)
      | cons p ps => exact ⟨p, ps, rfl⟩
    simp only [splitPages, if_neg h1, if_neg h2, hp]
    exact .here (.here h)
  | @cons v a b _ ih =>
    by_cases hv : v = .newPage
    · subst hv
      simp only [splitPages, if_true]
      exact .later ih
    · obtain ⟨p, ps, e1, e2⟩ := splitPages_cons (vs := a) hv
      obtain ⟨p', ps', e3, e4⟩ := splitPages_cons (vs := b) hv
      rw [e2, e4]
      rw [e1, e3] at ih
      cases ih with
      | here h => exact .here (.cons h)
      | later h => exact .later h

theorem exch_pagesQuiet {ps ps'} (h : ExchP d ps ps') : ∀ {t}, PagesQuiet d t ps → PagesQuiet d t ps' := by
  induction h with
  | here h => intro t hs; exact ⟨exch_pageStops h hs.1, by rw [← exch_text h]; exact hs.2⟩
  | later _ ih => intro t hs; exact ⟨hs.1, ih hs.2⟩

theorem exch_pictured {ps ps'} (h : ExchP d ps ps') : ∀ {t p xs}, Pictured d t p xs ps → Pictured d t p xs ps' := by
  have last : ∀ {a more b more' rect}, ExchS d a more b more' → lastRect d rect more' = lastRect d rect more := by
    intro a more b more' rect h
    induction h generalizing rect with
    | first _ => rfl
    | later _ ih => simp only [lastRect]; exact ih
  induction h with
  | @here p p' ps h =>
    intro t q xs hx
    obtain ⟨times, bg⟩ := q
    unfold Pictured at hx ⊢
    obtain ⟨raster, more, k1, k2, k3⟩ := hx
    have hsec := sections_exch h
    have e1 : pageTimes (signPage d).1 times p' = pageTimes (signPage d).1 times p := by
      have := congrArg Settings.times (exch_settings h ⟨t, times, bg⟩)
      rw [settings_times, settings_times] at this
      exact this.symm
    have e2 : background (signPage d).2 bg p' = background (signPage d).2 bg p := by
      have := congrArg Settings.bg (exch_settings h ⟨t, times, bg⟩)
      rw [settings_bg, settings_bg] at this
      exact this.symm
    simp only [] at k1 k2 k3 ⊢
    rw [e1, e2, last hsec, ← exch_text h]
    exact ⟨raster, more, exch_composed hsec ⟨rfl, rfl⟩ k1, k2, k3⟩
  | later _ ih =>
    intro t q xs hx
    unfold Pictured at hx ⊢
    obtain ⟨raster, more, k1, k2, k3⟩ := hx
    exact ⟨raster, more, k1, k2, ih k3⟩

theorem reordered_symm {a b} (h : Reordered d a b) : Reordered d b a := by
  have tr : ∀ {a b c}, Reordered d a b → Reordered d b c → Reordered d a c := by
    intro a b c h1 h2
    induction h2 with
    | same => exact h1
    | step _ h ih => exact .step ih h
  induction h with
  | same => exact .same
  | step _ h ih => exact tr (.step .same (free_symm h)) ih

theorem order_forward (hd : SizeOk d) (hok : SignOk d) (hf : FontsOk d.fontDefinition) (W H : Nat)
    (hg : GraphicsOk W H d.graphicDefinition) (ms ms' : Str) (hs : SizesOk d ms) (hs' : SizesOk d ms') {vs vs' : List Value}
    (hv : Parses (slices ms) vs) (hv' : Parses (slices ms') vs') (hr : Reordered d vs vs') {xs}
    (h : ShownAs d ms xs) : ShownAs d ms' xs := by
  have k := (shown_iff d hd hok hf W H hg ms hs hv xs).1 h
  refine (shown_iff d hd hok hf W H hg ms' hs' hv' xs).2 ?_
  clear hv hv' h
  induction hr with
  | same => exact k
  | @step pre x y post _ hfree ih =>
    obtain ⟨⟨k1, k2⟩, k3⟩ := ih
    have he := exch_at (post := post) hfree pre
    exact ⟨⟨fun v hm => k1 v (exch_mem he hm), exch_pagesQuiet (splitPages_exch he) k2⟩,
      exch_pictured (splitPages_exch he) k3⟩

/-- **C106** Color rectangles and graphics may be written before or after the texts (and other tags) of their text
rectangle, graphics only on the same side of color tags, and in any order among themselves when they have no pixel in
common: a message is shown exactly if it is shown after such exchanges, and all pages are the same. -/
theorem C106_order (d : Dms) (hd : SizeOk d) (hok : SignOk d) (hf : FontsOk d.fontDefinition) (W H : Nat)
    (hg : GraphicsOk W H d.graphicDefinition) (ms ms' : Str) (hs : SizesOk d ms) (hs' : SizesOk d ms') (vs vs' : List Value)
    (hv : Parses (slices ms) vs) (hv' : Parses (slices ms') vs') (hr : Reordered d vs vs') (xs) :
    ShownAs d ms xs ↔ ShownAs d ms' xs :=
  ⟨order_forward hd hok hf W H hg ms ms' hs hs' hv hv' hr,
    order_forward hd hok hf W H hg ms' ms hs' hs hv' hv (reordered_symm hr)⟩

/-- **C106 (built)** the same on a sign made by the builder, for messages of at most 128 characters -/
theorem C106_built (p : Profile) (b : DmsBuilder) (d : Dms) (h : b.build p = .ok d)
    (hw : d.vmsCfg.signWidthPixels.toNat < 65535) (hh : d.vmsCfg.signHeightPixels.toNat < 65535)
    (hz : ¬ (d.vmsCfg.signWidthPixels.toNat = 0 ∧ d.vmsCfg.signHeightPixels.toNat = 0))
    (hf : 1 ≤ d.multiCfg.defaultFont.toNat)
    (hjp : d.multiCfg.defaultJustificationPage ≠ .other)
    (hjl : d.multiCfg.defaultJustificationLine ≠ .other ∧ d.multiCfg.defaultJustificationLine ≠ .full)
    (ms ms' : Str) (hl : ms.length ≤ 128) (hl' : ms'.length ≤ 128) (vs vs' : List Value)
    (hv : Parses (slices ms) vs) (hv' : Parses (slices ms') vs') (hr : Reordered d vs vs') (xs) :
    ShownAs d ms xs ↔ ShownAs d ms' xs := by
  have hv1 := C22_built_sign_valid p b d h
  exact C106_order d ⟨hw, hh, hz⟩ ⟨hw, hh, hf, hjp, hjl, hv1.2.2.2.2.1.fonts, hv1.2.2.2.2.2.1.graphics⟩ hv1.2.2.2.2.1 _ _
    hv1.2.2.2.2.2.1 ms ms' (sizesOk_short d ms hl) (sizesOk_short d ms' hl') vs vs' hv hv' hr xs

/-- color rectangles without a common pixel -/
theorem rects_noCommon {r r' : Rectangle} {c c' : Color}
    (h : ∀ i j, ¬ (PixelIn d.vmsCfg.signWidthPixels.toNat d.vmsCfg.signHeightPixels.toNat r i j ∧
      PixelIn d.vmsCfg.signWidthPixels.toNat d.vmsCfg.signHeightPixels.toNat r' i j)) :
    NoCommonPixel d (.colorRectangle r c) (.colorRectangle r' c') := by
  refine ⟨rfl, rfl, fun i j ⟨⟨_, _, h1⟩, ⟨_, _, h2⟩⟩ => h i j ?_⟩
  cases h1 with
  | rect h1 =>
    cases h2 with
    | rect h2 => exact ⟨h1, h2⟩

/-- a message with drawings among its texts -/
def drawnAmong : Str := c!"A[cr1,1,5,5,0,255,0][cf255,0,0][cr10,10,5,5,0,0,255]C"
/-- a message with drawings before its texts -/
def drawnBefore : Str := c!"[cr10,10,5,5,0,0,255][cr1,1,5,5,0,255,0]A[cf255,0,0]C"

-- the two messages are shown alike
example (xs) : ShownAs fullDms drawnAmong xs ↔ ShownAs fullDms drawnBefore xs := by
  refine C106_built .checked _ fullDms fullDms_built (by decide +kernel)
    (by decide +kernel) (by decide +kernel) (by decide +kernel) (by decide) ⟨by decide, by decide⟩
    _ _ (by decide +kernel) (by decide +kernel)
    [.text c!"A", .colorRectangle ⟨1, 1, 5, 5⟩ (.rgb 0 255 0), .colorForeground (some (.rgb 255 0 0)),
      .colorRectangle ⟨10, 10, 5, 5⟩ (.rgb 0 0 255), .text c!"C"]
    [.colorRectangle ⟨10, 10, 5, 5⟩ (.rgb 0 0 255), .colorRectangle ⟨1, 1, 5, 5⟩ (.rgb 0 255 0), .text c!"A",
      .colorForeground (some (.rgb 255 0 0)), .text c!"C"] ?_ ?_ ?_ xs
  · rw [show slices drawnAmong = [c!"A", c!"[cr1,1,5,5,0,255,0]", c!"[cf255,0,0]", c!"[cr10,10,5,5,0,0,255]", c!"C"] by
      decide +kernel]
    exact .cons (by decide +kernel) (.cons (by decide +kernel) (.cons (by decide +kernel) (.cons (by decide +kernel)
      (.cons (by decide +kernel) .nil))))
  · rw [show slices drawnBefore = [c!"[cr10,10,5,5,0,0,255]", c!"[cr1,1,5,5,0,255,0]", c!"A", c!"[cf255,0,0]", c!"C"] by
      decide +kernel]
    exact .cons (by decide +kernel) (.cons (by decide +kernel) (.cons (by decide +kernel) (.cons (by decide +kernel)
      (.cons (by decide +kernel) .nil))))
  · have pass : ∀ {r c y}, isDrawing y = false → y ≠ .newPage → (∀ r, y ≠ .textRectangle r) →
        Free fullDms y (.colorRectangle r c) := fun h1 h2 h3 => .inr (.inl ⟨rfl, h1, h2, h3, fun _ _ h => by cases h⟩)
    have s1 := Reordered.step (d := fullDms) (pre := []) .same (pass (r := ⟨1, 1, 5, 5⟩) (c := .rgb 0 255 0)
      (y := .text c!"A") rfl (by simp) (by simp)) (post := [.colorForeground (some (.rgb 255 0 0)),
      .colorRectangle ⟨10, 10, 5, 5⟩ (.rgb 0 0 255), .text c!"C"])
    have s2 := Reordered.step (pre := [_, _]) s1 (pass rfl (by simp) (by simp))
    have s3 := Reordered.step (pre := [_]) s2 (pass rfl (by simp) (by simp))
    refine Reordered.step (pre := []) s3 (.inr (.inr (rects_noCommon fun i j ⟨h1, h2⟩ => ?_)))
    have e1 : (1 : UInt16).toNat + extWidth ⟨1, 1, 5, 5⟩ fullDms.vmsCfg.signWidthPixels.toNat = 6 := by decide +kernel
    have e2 : (10 : UInt16).toNat = 10 := rfl
    simp only [PixelIn, e1] at h1 h2
    omega

example : summary fullDms drawnAmong = summary fullDms drawnBefore ∧
    (summary fullDms drawnAmong).map List.length = some 1 := by decide +kernel

-- the order of color rectangles with common pixels does matter
example : pixels fullDms c!"[cr1,1,5,5,0,255,0][cr3,3,5,5,255,0,0]" [(3, 3)] ≠
    pixels fullDms c!"[cr3,3,5,5,255,0,0][cr1,1,5,5,0,255,0]" [(3, 3)] := by decide +kernel

-- as does the order of a graphic and a color tag
example : pixels graphDms c!"[cf1][g4,1,1]" [(0, 0), (1, 0)] ≠ pixels graphDms c!"[g4,1,1][cf1]" [(0, 0), (1, 0)] := by
  decide +kernel

end Ntcip
