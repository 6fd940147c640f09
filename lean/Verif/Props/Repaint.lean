import Verif.Spec.Repaint
import Verif.Props.Hidden
import Verif.Lemmas.Cover
/-
C122: drawings that paint the same are shown the same.
-/
namespace Ntcip
open Spec Tests

variable {d : Dms} {X Y : List Value}

/-- drawings are replaced by others -/
inductive Rep (X Y : List Value) : List Value → List Value → Prop
  | here {r} : Rep X Y (X ++ r) (Y ++ r)
  | cons {v a b} : Rep X Y a b → Rep X Y (v :: a) (v :: b)

/-- all values are drawings -/
def Drawings (X : List Value) : Prop := ∀ v ∈ X, isDrawing v = true

theorem rep_at (pre post : List Value) : Rep X Y (pre ++ (X ++ post)) (pre ++ (Y ++ post)) := by
  induction pre with
  | nil => exact .here
  | cons v pre ih => exact .cons ih

theorem rep_symm {a b} (h : Rep X Y a b) : Rep Y X b a := by
  induction h with
  | here => exact .here
  | cons _ ih => exact .cons ih

theorem rep_mem {a b} (h : Rep X Y a b) {v : Value} (hv : v ∈ a) : v ∈ X ∨ v ∈ b := by
  induction h with
  | here =>
    rcases List.mem_append.1 hv with hv | hv
    · exact .inl hv
    · exact .inr (List.mem_append_right _ hv)
  | cons _ ih =>
    rcases List.mem_cons.1 hv with rfl | hv
    · exact .inr (List.mem_cons_self ..)
    · exact (ih hv).imp id (List.mem_cons_of_mem _)

theorem rep_own {a b} (h : Rep X Y a b) {v : Value} (hv : v ∈ X) : v ∈ a := by
  induction h with
  | here => exact List.mem_append_left _ hv
  | cons _ ih => exact List.mem_cons_of_mem _ ih

/-- what drawings have no effect on -/
theorem rep_fold {α} {F : List Value → α → α} (hF : ∀ v, isDrawing v = true → ∀ r s, F (v :: r) s = F r s)
    (hc : ∀ v r r', (∀ s, F r s = F r' s) → ∀ s, F (v :: r) s = F (v :: r') s) (hX : Drawings X) (hY : Drawings Y)
    {a b} (h : Rep X Y a b) : ∀ s, F a s = F b s := by
  have key : ∀ {X : List Value}, Drawings X → ∀ r s, F (X ++ r) s = F r s := by
    intro X hX
    induction X with
    | nil => intro r s; rfl
    | cons v X ih =>
      intro r s
      rw [List.cons_append, hF v (hX v (List.mem_cons_self ..)), ih fun w hw => hX w (List.mem_cons_of_mem _ hw)]
  induction h with
  | here => intro s; rw [key hX, key hY]
  | cons _ ih => exact hc _ _ _ ih

theorem rep_settings (hX : Drawings X) (hY : Drawings Y) {a b} (h : Rep X Y a b) : ∀ s : Settings,
    a.foldl (Settings.apply d) s = b.foldl (Settings.apply d) s :=
  rep_fold (F := fun r s => r.foldl (Settings.apply d) s)
    (fun v hv r s => by simp only [List.foldl_cons]; rw [drawing_settings hv]) (fun v r r' h s => h _) hX hY h

theorem rep_text (hX : Drawings X) (hY : Drawings Y) {a b} (h : Rep X Y a b) (t : TextAttr) :
    a.foldl (TextAttr.apply (signAttr d)) t = b.foldl (TextAttr.apply (signAttr d)) t := by
  have := congrArg Settings.text (rep_settings (d := d) hX hY h ⟨t, (signPage d).1, (signPage d).2⟩)
  rwa [settings_text, settings_text] at this

theorem rep_spacing (hX : Drawings X) (hY : Drawings Y) {a b} (h : Rep X Y a b) : ∀ sp,
    a.foldl spacingAfter sp = b.foldl spacingAfter sp :=
  rep_fold (F := fun r s => r.foldl spacingAfter s)
    (fun v hv r s => by simp only [List.foldl_cons]; rw [drawing_spacing hv]) (fun v r r' h s => h _) hX hY h

theorem rep_append {P : List Value → Prop} (hP : ∀ v, isDrawing v = true → ∀ r, P (v :: r) ↔ P r) (hX : Drawings X)
    (r : List Value) : P (X ++ r) ↔ P r := by
  induction X with
  | nil => rfl
  | cons v X ih =>
    rw [List.cons_append, hP v (hX v (List.mem_cons_self ..)), ih fun w hw => hX w (List.mem_cons_of_mem _ hw)]

theorem rep_pieces (hX : Drawings X) (hY : Drawings Y) {a b} (h : Rep X Y a b) :
    ∀ z t sp n bl, pieces z t sp n bl a = pieces z t sp n bl b := by
  induction h with
  | @here r =>
    intro z t sp n bl
    have k : ∀ {X}, Drawings X → pieces z t sp n bl (X ++ r) = pieces z t sp n bl r := fun {X} hX =>
      (rep_append (P := fun q => pieces z t sp n bl q = pieces z t sp n bl r)
        (fun v hv q => by rw [drawing_pieces hv]) hX r).2 rfl
    rw [k hX, k hY]
  | cons _ ih =>
    intro z t sp n bl
    unfold pieces
    exact congrArg _ (ih ..)

theorem rep_numbers (hX : Drawings X) (hY : Drawings Y) {a b} (h : Rep X Y a b) :
    ∀ z t n bl, numbers z t n bl a = numbers z t n bl b := by
  induction h with
  | @here r =>
    intro z t n bl
    have k : ∀ {X}, Drawings X → numbers z t n bl (X ++ r) = numbers z t n bl r := fun {X} hX =>
      (rep_append (P := fun q => numbers z t n bl q = numbers z t n bl r)
        (fun v hv q => by rw [drawing_numbers hv]) hX r).2 rfl
    rw [k hX, k hY]
  | cons _ ih =>
    intro z t n bl
    unfold numbers
    exact congrArg _ (ih ..)

theorem rep_tidy (hX : Drawings X) (hY : Drawings Y) {a b} (h : Rep X Y a b) :
    ∀ z t f bl, Tidy z t f bl a ↔ Tidy z t f bl b := by
  induction h with
  | @here r =>
    intro z t f bl
    have k : ∀ {X}, Drawings X → (Tidy z t f bl (X ++ r) ↔ Tidy z t f bl r) := fun {X} hX =>
      rep_append (P := fun q => Tidy z t f bl q) (fun v hv q => drawing_tidy hv ..) hX r
    rw [k hX, k hY]
  | cons _ ih =>
    intro z t f bl
    unfold Tidy
    exact and_congr Iff.rfl (ih ..)

theorem rep_textDrawn (hX : Drawings X) (hY : Drawings Y) {t sp rect a b u w} (h : Rep X Y a b) :
    TextDrawn d t sp rect a u w ↔ TextDrawn d t sp rect b u w := by
  unfold TextDrawn
  rw [← rep_pieces hX hY h, ← rep_numbers hX hY h, ← rep_tidy hX hY h]

/-! ### the picture -/

theorem layered_append {W H : Nat} {i j} (X r : List Value) : ∀ {p : Colors} {o}, Layered d W H p (X ++ r) i j o ↔
    ∃ o1 o2, Layered d W H p X i j o1 ∧ Layered d W H (X.foldl (Colors.apply d) p) r i j o2 ∧ o = o2.or o1 := by
  induction X with
  | nil =>
    intro p o
    constructor
    · intro h
      exact ⟨none, o, .nil, h, by simp⟩
    · rintro ⟨o1, o2, h1, h2, rfl⟩
      cases h1
      simpa using h2
  | cons v X ih =>
    intro p o
    constructor
    · intro h
      cases h with
      | cons h1 h2 =>
        obtain ⟨o1, o2, k1, k2, rfl⟩ := ih.1 h2
        exact ⟨_, o2, .cons h1 k1, k2, by rw [Option.or_assoc]⟩
    · rintro ⟨o1, o2, h1, h2, rfl⟩
      cases h1 with
      | cons h3 h4 =>
        rw [← Option.or_assoc]
        exact .cons h3 (ih.2 ⟨_, _, h4, h2, rfl⟩)

theorem drawings_colors (hX : Drawings X) (p : Colors) : X.foldl (Colors.apply d) p = p := by
  induction X generalizing p with
  | nil => rfl
  | cons v X ih =>
    rw [List.foldl_cons, drawing_colors (hX v (List.mem_cons_self ..)), ih fun w hw => hX w (List.mem_cons_of_mem _ hw)]

theorem rep_layered (hX : Drawings X) (hY : Drawings Y) (hxy : PaintAlike d X Y) {a b} (h : Rep X Y a b) : ∀ {p i j o},
    Layered d d.vmsCfg.signWidthPixels.toNat d.vmsCfg.signHeightPixels.toNat p a i j o ↔
    Layered d d.vmsCfg.signWidthPixels.toNat d.vmsCfg.signHeightPixels.toNat p b i j o := by
  induction h with
  | @here r =>
    intro p i j o
    rw [layered_append, layered_append, drawings_colors hX, drawings_colors hY]
    simp only [hxy p i j]
  | @cons v a b _ ih =>
    intro p i j o
    constructor
    · intro hc
      cases hc with
      | cons h1 h2 => exact .cons h1 (ih.1 h2)
    · intro hc
      cases hc with
      | cons h1 h2 => exact .cons h1 (ih.2 h2)

/-! ### text rectangles and pages -/

inductive RepS (X Y : List Value) :
    List Value → List (Rectangle × List Value) → List Value → List (Rectangle × List Value) → Prop
  | first {a b more} : Rep X Y a b → RepS X Y a more b more
  | later {a r us us' more more'} : RepS X Y us more us' more' → RepS X Y a ((r, us) :: more) a ((r, us') :: more')

theorem sections_drawings (hX : Drawings X) (r : List Value) : sections (X ++ r) = (X ++ (sections r).1, (sections r).2) := by
  induction X with
  | nil => rfl
  | cons v X ih =>
    rw [List.cons_append, sections_cons (drawing_noRect (hX v (List.mem_cons_self ..))).1,
      ih fun w hw => hX w (List.mem_cons_of_mem _ hw)]
    rfl

theorem sections_rep (hX : Drawings X) (hY : Drawings Y) {a b} (h : Rep X Y a b) :
    RepS X Y (sections a).1 (sections a).2 (sections b).1 (sections b).2 := by
  induction h with
  | @here r =>
    rw [sections_drawings hX, sections_drawings hY]
    exact .first .here
  | @cons v a b _ ih =>
    by_cases hr : ∃ r, v = .textRectangle r
    · obtain ⟨r, rfl⟩ := hr
      simp only [sections]
      exact .later ih
    · rw [sections_cons (fun r e => hr ⟨r, e⟩), sections_cons (fun r e => hr ⟨r, e⟩)]
      generalize (sections a).1 = a1, (sections a).2 = a2, (sections b).1 = b1, (sections b).2 = b2 at ih
      cases ih with
      | first h => exact .first (.cons h)
      | later h => exact .later h

theorem rep_composed (hX : Drawings X) (hY : Drawings Y) (hxy : PaintAlike d X Y) {bg t sp rect a more b more' u w}
    (h : RepS X Y a more b more')
    (hu : u.width = d.vmsCfg.signWidthPixels.toNat ∧ u.height = d.vmsCfg.signHeightPixels.toNat) :
    Composed d bg t sp rect a more u w ↔ Composed d bg t sp rect b more' u w := by
  have gr : ∀ {p a b u w}, (u.width = d.vmsCfg.signWidthPixels.toNat ∧ u.height = d.vmsCfg.signHeightPixels.toNat) →
      Rep X Y a b → (GraphicsOn d p a u w ↔ GraphicsOn d p b u w) := by
    intro p a b u w hu h
    constructor
    · intro hg
      refine ⟨hg.width, hg.height, fun i j => ?_⟩
      obtain ⟨o, h1, h2⟩ := hg.px i j
      rw [hu.1, hu.2] at h1 ⊢
      exact ⟨o, (rep_layered hX hY hxy h).1 h1, h2⟩
    · intro hg
      refine ⟨hg.width, hg.height, fun i j => ?_⟩
      obtain ⟨o, h1, h2⟩ := hg.px i j
      rw [hu.1, hu.2] at h1 ⊢
      exact ⟨o, (rep_layered hX hY hxy h).2 h1, h2⟩
  induction h generalizing t sp rect u w with
  | first h =>
    constructor
    · intro hc
      cases hc with
      | last h1 h2 => exact .last ((gr hu h).1 h1) ((rep_textDrawn hX hY h).1 h2)
      | next h1 h2 h3 =>
        refine .next ((gr hu h).1 h1) ((rep_textDrawn hX hY h).1 h2) ?_
        rw [← rep_text hX hY h, ← rep_spacing hX hY h]
        exact h3
    · intro hc
      cases hc with
      | last h1 h2 => exact .last ((gr hu h).2 h1) ((rep_textDrawn hX hY h).2 h2)
      | next h1 h2 h3 =>
        refine .next ((gr hu h).2 h1) ((rep_textDrawn hX hY h).2 h2) ?_
        rw [rep_text hX hY h, rep_spacing hX hY h]
        exact h3
  | later _ ih =>
    constructor
    · intro hc
      cases hc with
      | next h1 h2 h3 =>
        refine .next h1 h2 ((ih ?_).1 h3)
        obtain ⟨_, _, _, _, _, hA, _⟩ := h2
        rw [hA.width, hA.height, h1.width, h1.height]
        exact hu
    · intro hc
      cases hc with
      | next h1 h2 h3 =>
        refine .next h1 h2 ((ih ?_).2 h3)
        obtain ⟨_, _, _, _, _, hA, _⟩ := h2
        rw [hA.width, hA.height, h1.width, h1.height]
        exact hu

theorem rep_rectsStops (hX : Drawings X) (hY : Drawings Y) (hq : ∀ x ∈ X, ∀ z, ¬ paintStop d x z)
    {n t sp rect a more b more'} (h : RepS X Y a more b more') (hs : Silent (rectsStops d n t sp rect b more')) :
    Silent (rectsStops d n t sp rect a more) := by
  have one : ∀ {t a b sp rect next}, Rep X Y a b → Silent (rectStops d t sp rect b next) →
      Silent (rectStops d t sp rect a next) := by
    intro t a b sp rect next h
    unfold rectStops
    simp only [silent_append, silent_map]
    have e : layoutOf d t sp rect a = layoutOf d t sp rect b := by unfold layoutOf; rw [rep_pieces hX hY h]
    rw [e]
    rintro ⟨h1, h2, h3⟩
    refine ⟨fun v hv => ?_, fun v hv => ?_, h3⟩
    · rcases rep_mem h hv with hv | hv
      · exact hq v hv
      · exact h1 v hv
    · rcases rep_mem h hv with hv | hv
      · exact drawing_layout (hX v hv)
      · exact h2 v hv
  induction h generalizing n t sp rect with
  | @first a b more h =>
    cases more with
    | nil =>
      unfold rectsStops at hs ⊢
      rw [silent_append] at hs ⊢
      exact ⟨one h hs.1, hs.2⟩
    | cons q more =>
      obtain ⟨r, us⟩ := q
      unfold rectsStops at hs ⊢
      rw [silent_append] at hs ⊢
      rw [rep_text hX hY h, rep_spacing hX hY h]
      exact ⟨one h hs.1, hs.2⟩
  | later _ ih =>
    unfold rectsStops at hs ⊢
    rw [silent_append, silent_cons] at hs ⊢
    exact ⟨hs.1, hs.2.1, ih hs.2.2⟩

theorem rep_pageStops (hX : Drawings X) (hY : Drawings Y) (hq : ∀ x ∈ X, ∀ z, ¬ paintStop d x z) {t a b} (h : Rep X Y a b)
    (hs : Silent (pageStops d t b)) : Silent (pageStops d t a) := by
  unfold pageStops at hs ⊢
  rw [silent_append, silent_map] at hs ⊢
  refine ⟨fun v hv => ?_, rep_rectsStops hX hY hq (sections_rep hX hY h) hs.2⟩
  rcases rep_mem h hv with hv | hv
  · exact drawing_background (hX v hv)
  · exact hs.1 v hv

inductive RepP (X Y : List Value) : List (List Value) → List (List Value) → Prop
  | here {p p' ps} : Rep X Y p p' → RepP X Y (p :: ps) (p' :: ps)
  | later {p ps ps'} : RepP X Y ps ps' → RepP X Y (p :: ps) (p :: ps')

theorem splitPages_drawings (hX : Drawings X) (r : List Value) {p ps} (h : splitPages r = p :: ps) :
    splitPages (X ++ r) = (X ++ p) :: ps := by
  induction X with
  | nil => exact h
  | cons v X ih =>
    have := ih fun w hw => hX w (List.mem_cons_of_mem _ hw)
    obtain ⟨q, qs, e1, e2⟩ := splitPages_cons (vs := X ++ r) (drawing_noRect (hX v (List.mem_cons_self ..))).2
    rw [this] at e1
    cases e1
    exact e2

theorem splitPages_rep (hX : Drawings X) (hY : Drawings Y) {a b} (h : Rep X Y a b) :
    RepP X Y (splitPages a) (splitPages b) := by
  induction h with
  | @here r =>
    obtain ⟨p, ps, hp⟩ : ∃ p ps, splitPages r = p :: ps := List.exists_cons_of_ne_nil (splitPages_ne r)
    rw [splitPages_drawings hX r hp, splitPages_drawings hY r hp]
    exact .here .here
  | @cons v a b _ ih =>
    by_cases hv : v = .newPage
    · subst hv
      simp only [splitPages, if_true]
      exact .later ih
    · obtain ⟨p, ps, e1, e2⟩ := splitPages_cons (vs := a) hv
      obtain ⟨p', ps', e3, e4⟩ := splitPages_cons (vs := b) hv
      rw [e2, e4]
      rw [e1, e3] at ih
      cases ih with
      | here h => exact .here (.cons h)
      | later h => exact .later h

theorem rep_pagesQuiet (hX : Drawings X) (hY : Drawings Y) (hq : ∀ x ∈ X, ∀ z, ¬ paintStop d x z) {ps ps'}
    (h : RepP X Y ps ps') : ∀ {t}, PagesQuiet d t ps' → PagesQuiet d t ps := by
  induction h with
  | here h =>
    intro t
    rw [PagesQuiet, PagesQuiet, rep_text hX hY h]
    exact fun hs => ⟨rep_pageStops hX hY hq h hs.1, hs.2⟩
  | later _ ih => intro t; rw [PagesQuiet, PagesQuiet]; exact fun hs => ⟨hs.1, ih hs.2⟩

theorem rep_pictured (hX : Drawings X) (hY : Drawings Y) (hxy : PaintAlike d X Y) {ps ps'} (h : RepP X Y ps ps') :
    ∀ {t p xs}, Pictured d t p xs ps ↔ Pictured d t p xs ps' := by
  have last : ∀ {a more b more' rect}, RepS X Y a more b more' → lastRect d rect more' = lastRect d rect more := by
    intro a more b more' rect h
    induction h generalizing rect with
    | first _ => rfl
    | later _ ih => simp only [lastRect]; exact ih
  induction h with
  | @here p p' ps h =>
    intro t q xs
    obtain ⟨times, bg⟩ := q
    unfold Pictured
    have hsec := sections_rep hX hY h
    have e1 : pageTimes (signPage d).1 times p' = pageTimes (signPage d).1 times p := by
      have := congrArg Settings.times (rep_settings (d := d) hX hY h ⟨t, times, bg⟩)
      rw [settings_times, settings_times] at this
      exact this.symm
    have e2 : background (signPage d).2 bg p' = background (signPage d).2 bg p := by
      have := congrArg Settings.bg (rep_settings (d := d) hX hY h ⟨t, times, bg⟩)
      rw [settings_bg, settings_bg] at this
      exact this.symm
    simp only []
    rw [e1, e2, last hsec, ← rep_text hX hY h]
    constructor
    · rintro ⟨raster, more, k1, k2, k3⟩
      exact ⟨raster, more, (rep_composed hX hY hxy hsec ⟨rfl, rfl⟩).1 k1, k2, k3⟩
    · rintro ⟨raster, more, k1, k2, k3⟩
      exact ⟨raster, more, (rep_composed hX hY hxy hsec ⟨rfl, rfl⟩).2 k1, k2, k3⟩
  | later _ ih =>
    intro t q xs
    unfold Pictured
    simp only [ih]

/-- **C122** Color rectangles and graphics one after another in a message can be replaced by others which paint every pixel
the same, if the sign can draw them: the pages are the same. -/
theorem C122_repaint (d : Dms) (hd : SizeOk d) (hok : SignOk d) (hf : FontsOk d.fontDefinition) (W H : Nat)
    (hg : GraphicsOk W H d.graphicDefinition) (ms ms' : Str) (hs : SizesOk d ms) (hs' : SizesOk d ms')
    (pre post X Y : List Value) (hX : ∀ x ∈ X, isDrawing x = true) (hY : ∀ y ∈ Y, isDrawing y = true)
    (hv : Parses (slices ms) (pre ++ (X ++ post))) (hv' : Parses (slices ms') (pre ++ (Y ++ post)))
    (hxy : PaintAlike d X Y) (hc : ∀ y ∈ Y, CanDraw d y) (xs) (hx : ShownAs d ms xs) : ShownAs d ms' xs := by
  have he : Rep Y X (pre ++ (Y ++ post)) (pre ++ (X ++ post)) := rep_at pre post
  have hp := splitPages_rep hX hY (rep_symm he)
  have hp' := splitPages_rep hY hX he
  unfold ShownAs at hx ⊢
  rw [shown_iff d hd hok hf W H hg ms hs hv xs] at hx
  rw [shown_iff d hd hok hf W H hg ms' hs' hv' xs]
  obtain ⟨⟨h1, h2⟩, h3⟩ := hx
  refine ⟨⟨?_, rep_pagesQuiet hY hX ?_ hp' h2⟩, (rep_pictured hX hY hxy hp).1 h3⟩
  · intro v hm
    rcases rep_mem he hm with hm | hm
    · exact (hc v hm).1
    · exact h1 v hm
  · intro y hy
    exact (paint_quiet_iff hd hg.numbers (parses_inRange hv' (slices_items ms') y (rep_own he hy)) (hY y hy)).2 (hc y hy).2

/-! ### color rectangles -/

theorem layered_rects {W H : Nat} {c : Color} (rs : List Rectangle) {p i j o} :
    Layered d W H p (rs.map fun r => .colorRectangle r c) i j o ↔
    ((∃ r ∈ rs, PixelIn W H r i j) ∧ o = some (Spec.foregroundRgb d c)) ∨ ((∀ r ∈ rs, ¬ PixelIn W H r i j) ∧ o = none) := by
  induction rs generalizing o with
  | nil =>
    constructor
    · intro h; cases h; exact .inr ⟨by simp, rfl⟩
    · rintro (⟨⟨r, hr, _⟩, _⟩ | ⟨_, rfl⟩)
      · simp at hr
      · exact .nil
  | cons r rs ih =>
    constructor
    · intro h
      cases h with
      | @cons _ _ _ _ _ o u h1 h2 =>
        have h2 := ih.1 h2
        cases h1 with
        | rect hp =>
          refine .inl ⟨⟨r, List.mem_cons_self .., hp⟩, ?_⟩
          rcases h2 with ⟨_, rfl⟩ | ⟨_, rfl⟩ <;> rfl
        | offRect hp =>
          rcases h2 with ⟨⟨q, hq, hh⟩, rfl⟩ | ⟨hh, rfl⟩
          · exact .inl ⟨⟨q, List.mem_cons_of_mem _ hq, hh⟩, rfl⟩
          · refine .inr ⟨fun q hq => ?_, rfl⟩
            rcases List.mem_cons.1 hq with rfl | hq
            · exact hp
            · exact hh q hq
        | other h _ => exact absurd rfl (h _ _)
    · intro h
      by_cases hp : PixelIn W H r i j
      · have ho : o = some (Spec.foregroundRgb d c) := by
          rcases h with ⟨_, h⟩ | ⟨h, _⟩
          · exact h
          · exact absurd hp (h r (List.mem_cons_self ..))
        by_cases hq : ∃ q ∈ rs, PixelIn W H q i j
        · have : o = (some (Spec.foregroundRgb d c)).or (some (Spec.foregroundRgb d c)) := ho
          rw [this]
          exact .cons (.rect hp) (ih.2 (.inl ⟨hq, rfl⟩))
        · have : o = (none : Option Rgb).or (some (Spec.foregroundRgb d c)) := ho
          rw [this]
          exact .cons (.rect hp) (ih.2 (.inr ⟨fun q hm hh => hq ⟨q, hm, hh⟩, rfl⟩))
      · have : o = o.or none := by simp
        rw [this]
        refine .cons (.offRect hp) (ih.2 ?_)
        rcases h with ⟨⟨q, hq, hh⟩, h⟩ | ⟨hh, h⟩
        · rcases List.mem_cons.1 hq with rfl | hq
          · exact absurd hh hp
          · exact .inl ⟨⟨q, hq, hh⟩, h⟩
        · exact .inr ⟨fun q hq => hh q (List.mem_cons_of_mem _ hq), h⟩

/-- **C122 (tiles)** color rectangles of the same color paint the same if they have the same pixels together -/
theorem C122_tiles (d : Dms) (c : Color) (rs rs' : List Rectangle)
    (h : ∀ i j, (∃ r ∈ rs, PixelIn d.vmsCfg.signWidthPixels.toNat d.vmsCfg.signHeightPixels.toNat r i j) ↔
      ∃ r ∈ rs', PixelIn d.vmsCfg.signWidthPixels.toNat d.vmsCfg.signHeightPixels.toNat r i j) :
    PaintAlike d (rs.map fun r => .colorRectangle r c) (rs'.map fun r => .colorRectangle r c) := by
  intro p i j o
  rw [layered_rects, layered_rects, h i j]
  have e : (∀ r ∈ rs, ¬ PixelIn d.vmsCfg.signWidthPixels.toNat d.vmsCfg.signHeightPixels.toNat r i j) ↔
      ∀ r ∈ rs', ¬ PixelIn d.vmsCfg.signWidthPixels.toNat d.vmsCfg.signHeightPixels.toNat r i j := by
    constructor
    · intro k r hr hp
      obtain ⟨q, hq, hh⟩ := (h i j).2 ⟨r, hr, hp⟩
      exact k q hq hh
    · intro k r hr hp
      obtain ⟨q, hq, hh⟩ := (h i j).1 ⟨r, hr, hp⟩
      exact k q hq hh
  rw [e]

/-! ### graphics -/

/-- what drawings paint is painted by one of them -/
theorem layered_some {W H : Nat} {R : List Value} (hR : Drawings R) {p i j o k} (h : Layered d W H p R i j o)
    (ho : o = some k) : ∃ v ∈ R, Layer d W H p v i j (some k) := by
  induction h with
  | nil => cases ho
  | @cons p v vs i j o u h1 h2 ih =>
    cases u with
    | none =>
      have ho : o = some k := by simpa using ho
      subst ho
      exact ⟨v, List.mem_cons_self .., h1⟩
    | some q =>
      cases ho
      obtain ⟨w, hw, h3⟩ := ih (fun w hw => hR w (List.mem_cons_of_mem _ hw)) rfl
      rw [drawing_colors (hR v (List.mem_cons_self ..))] at h3
      exact ⟨w, List.mem_cons_of_mem _ hw, h3⟩

/-- and what is not painted, by none -/
theorem layered_none {W H : Nat} {R : List Value} (hR : Drawings R) {p i j o} (h : Layered d W H p R i j o)
    (ho : o = none) : ∀ v ∈ R, Layer d W H p v i j none := by
  induction h with
  | nil => intro v hv; cases hv
  | @cons p v vs i j o u h1 h2 ih =>
    obtain ⟨rfl, rfl⟩ : u = none ∧ o = none := by cases u <;> simp_all
    intro w hw
    rcases List.mem_cons.1 hw with rfl | hw
    · exact h1
    · have := ih (fun w hw => hR w (List.mem_cons_of_mem _ hw)) rfl w hw
      rwa [drawing_colors (hR v (List.mem_cons_self ..))] at this

theorem layered_exists {W H : Nat} {R : List Value} (hR : ∀ v ∈ R, ∃ r c, v = .colorRectangle r c) (p i j) :
    ∃ o, Layered d W H p R i j o := by
  induction R generalizing p with
  | nil => exact ⟨_, .nil⟩
  | cons v R ih =>
    obtain ⟨u, hu⟩ := ih (fun w hw => hR w (List.mem_cons_of_mem _ hw)) (p.apply d v)
    obtain ⟨r, c, rfl⟩ := hR v (List.mem_cons_self ..)
    by_cases hp : PixelIn W H r i j
    · exact ⟨_, .cons (.rect hp) hu⟩
    · exact ⟨_, .cons (.offRect hp) hu⟩

theorem pixelRect_in {W H : Nat} {at_ : Nat × Nat} {i j : Nat} (hi : at_.1 + i + 1 < 65536) (hj : at_.2 + j + 1 < 65536) (x y : Nat) :
    PixelIn W H ⟨.ofNat (at_.1 + i + 1), .ofNat (at_.2 + j + 1), 1, 1⟩ x y ↔ x = at_.1 + i ∧ y = at_.2 + j := by
  have e1 : (UInt16.ofNat (at_.1 + i + 1)).toNat = at_.1 + i + 1 := by simp; omega
  have e2 : (UInt16.ofNat (at_.2 + j + 1)).toNat = at_.2 + j + 1 := by simp; omega
  simp only [PixelIn, extWidth, extHeight, e1, e2]
  simp
  omega

/-- **C122 (graphics)** A graphic, other than one of 1 bit per pixel, paints the same as a color rectangle for each of its
pixels. -/
theorem C122_graphic (d : Dms) (hd : SizeOk d) (W H : Nat) (hg : GraphicsOk W H d.graphicDefinition) (n : UInt8) (hn : n ≠ 0)
    (pos) (g : Graphic) (hof : GraphicOf d n pos g)
    (hfit : (corner pos).1 + g.width.toNat ≤ d.vmsCfg.signWidthPixels.toNat ∧
      (corner pos).2 + g.height.toNat ≤ d.vmsCfg.signHeightPixels.toNat)
    (ht : g.gtype ≠ .monochrome1Bit) (hs : d.multiCfg.colorScheme = .color24Bit ∨ g.gtype ≠ .color24Bit) (R : List Value)
    (hR : PixelRects d g (corner pos) R) : PaintAlike d [.graphic n pos] R := by
  have hrect : ∀ v ∈ R, ∃ r c, v = .colorRectangle r c := by
    intro v hv
    obtain ⟨i, j, c, _, rfl⟩ := hR.each v hv
    exact ⟨_, _, rfl⟩
  have hdraw : Drawings R := by
    intro v hv
    obtain ⟨r, c, rfl⟩ := hrect v hv
    rfl
  have hno : ∀ pos, Value.graphic 0 pos ∉ R := by
    intro pos hm
    obtain ⟨r, c, h⟩ := hrect _ hm
    cases h
  have hw := hd.width
  have hh := hd.height
  -- the color that is shown
  have hsh : ∀ {p : Colors} {c k}, PixelValue g.gtype g.bitmap k c → shown g.gtype (p.ctx d) c =
      colorValue d.multiCfg.colorScheme (signForeground d) (signBackground d) c := by
    intro p c k hk
    cases c with
    | legacy v =>
      unfold shown
      simp only [if_neg ht]
      rfl
    | rgb r g' b =>
      have h24 : d.multiCfg.colorScheme = .color24Bit := by
        rcases hs with h | h
        · exact h
        · generalize g.gtype = q at hk h
          cases hk
          exact absurd rfl h
      simp [shown, colorValue, h24]
  have main : ∀ {p i j o o'}, Layer d d.vmsCfg.signWidthPixels.toNat d.vmsCfg.signHeightPixels.toNat p (.graphic n pos) i j o →
      Layered d d.vmsCfg.signWidthPixels.toNat d.vmsCfg.signHeightPixels.toNat p R i j o' → o = o' := by
    intro p i j o o' h1 h2
    have hof' : ∀ {g'}, GraphicOf d n pos g' → g' = g := fun h => graphicOf_unique hg.numbers hn h hof
    cases ho' : o' with
    | some k =>
      obtain ⟨v, hv, hl⟩ := layered_some hdraw h2 ho'
      obtain ⟨a, b, c, ⟨k1, k2, k3, k4, k5⟩, rfl⟩ := hR.each v hv
      unfold pixelRect at hl
      cases hl with
      | rect hp =>
        rw [pixelRect_in (by omega) (by omega)] at hp
        obtain ⟨rfl, rfl⟩ := hp
        cases h1 with
        | graphic hof2 _ hk =>
          obtain rfl := hof' hof2
          rw [Nat.add_sub_cancel_left, Nat.add_sub_cancel_left] at hk
          obtain rfl := pixelValue_unique hk k3
          rw [if_neg k4, hsh k3]
          unfold Spec.foregroundRgb
          obtain ⟨q, hq⟩ := Option.ne_none_iff_exists'.1 k5
          rw [hq]; rfl
        | offGraphic hof2 hb =>
          obtain rfl := hof' hof2
          refine absurd ⟨?_, ?_, ?_, ?_⟩ hb <;> omega
        | other _ h => exact absurd rfl (h _ _)
    | none =>
      have hl := layered_none hdraw h2 ho'
      cases ho : o with
      | none => rfl
      | some q =>
        exfalso
        cases h1 with
        | @graphic _ _ g' c _ _ hof2 hb hk =>
          obtain rfl := hof' hof2
          split at ho
          · cases ho
          rename_i htr
          rw [hsh hk] at ho
          obtain ⟨b1, b2, b3, b4⟩ := hb
          have hm := hR.all (i - (corner pos).1) (j - (corner pos).2) c
            ⟨by omega, by omega, hk, htr, by rw [ho]; simp⟩
          have := hl _ hm
          unfold pixelRect at this
          cases this with
          | offRect hp =>
            rw [pixelRect_in (by omega) (by omega)] at hp
            omega
          | other h _ => exact absurd rfl (h _ _)
        | offGraphic => cases ho
        | other => cases ho
  have hex : ∀ p i j, ∃ o, Layer d d.vmsCfg.signWidthPixels.toNat d.vmsCfg.signHeightPixels.toNat p (.graphic n pos) i j o := by
    intro p i j
    by_cases hb : InBox g (corner pos) i j
    · have hgok := hg.graphics g hof.1 (by
        rw [hof.2.1]
        intro e
        exact hn (UInt8.toNat_inj.1 e))
      obtain ⟨c, hc⟩ := valid_pixel _ _ g hgok (i - (corner pos).1) (j - (corner pos).2)
          (by have := hb.1; have := hb.2.1; omega) (by have := hb.2.2.1; have := hb.2.2.2; omega)
      exact ⟨_, .graphic hof hb hc⟩
    · exact ⟨_, .offGraphic hof hb⟩
  intro p i j o
  constructor
  · intro h
    cases h with
    | cons h1 h2 =>
      cases h2
      obtain ⟨o', ho'⟩ := layered_exists (d := d) hrect p i j
      have := main h1 ho'
      simp only [Option.none_or]
      rw [this]
      exact ho'
  · intro h
    obtain ⟨o', ho'⟩ := hex p i j
    have := main ho' h
    subst this
    have e : o' = (none : Option Rgb).or o' := by simp
    rw [e]
    exact .cons ho' .nil

/-- and the sign can draw these color rectangles -/
theorem C122_pixels (d : Dms) (hd : SizeOk d) (htag : ∀ r c t, (Value.colorRectangle r c).tag = some t →
      d.multiCfg.supportedMultiTags t = true) (pos) (g : Graphic)
    (hfit : (corner pos).1 + g.width.toNat ≤ d.vmsCfg.signWidthPixels.toNat ∧
      (corner pos).2 + g.height.toNat ≤ d.vmsCfg.signHeightPixels.toNat) (R : List Value)
    (hR : PixelRects d g (corner pos) R) : ∀ v ∈ R, CanDraw d v := by
  intro v hv
  obtain ⟨i, j, c, ⟨k1, k2, k3, k4, k5⟩, rfl⟩ := hR.each v hv
  have hw := hd.width
  have hh := hd.height
  refine ⟨htag _ _, fun c' hc => ?_, ?_⟩
  · cases hc
    revert k5
    cases c with
    | legacy v =>
      cases d.multiCfg.colorScheme
      case monochrome1Bit =>
        simp only [colorValue, Admits]
        intro h
        refine Classical.byContradiction fun hv => h ?_
        rw [if_neg (by omega), if_neg (by omega)]
      all_goals simp [colorValue, Admits, classicColors] <;> omega
    | rgb r g b =>
      cases d.multiCfg.colorScheme <;> simp [colorValue, Admits]
  · have e1 : (UInt16.ofNat ((corner pos).1 + i + 1)).toNat = (corner pos).1 + i + 1 := by simp; omega
    have e2 : (UInt16.ofNat ((corner pos).2 + j + 1)).toNat = (corner pos).2 + j + 1 := by simp; omega
    show InsideRect _ _ _
    constructor <;> simp only [e1, e2, extWidth, extHeight] <;> simp <;> omega

/-! ### examples -/

/-- a graphic -/
def graphicMsg : Str := c!"A[g7,3,3][jl4]B"
/-- color rectangles of its pixels; one is transparent -/
def pixelsMsg : Str := c!"A[cr4,4,1,1,255,0,255][cr3,3,1,1,255,255,255][cr4,3,1,1,255,0,255][jl4]B"

def Tests.graphic7 : Graphic := ⟨7, c!"Example 4", 2, 2, .color24Bit, some (.rgb 0 0xFF 0),
  [0xFF, 0xFF, 0xFF, 0xFF, 0x00, 0xFF, 0x00, 0xFF, 0x00, 0xFF, 0x00, 0xFF]⟩

def Tests.pixels7 : List Value := [.colorRectangle ⟨4, 4, 1, 1⟩ (.rgb 255 0 255),
  .colorRectangle ⟨3, 3, 1, 1⟩ (.rgb 255 255 255), .colorRectangle ⟨4, 3, 1, 1⟩ (.rgb 255 0 255)]

theorem Tests.pixels7_all : PixelRects graphDms graphic7 (corner (some (3, 3, none))) pixels7 := by
  have h24 : graphDms.multiCfg.colorScheme = .color24Bit := by decide +kernel
  constructor
  · intro v hv
    simp only [pixels7, List.mem_cons, List.not_mem_nil, or_false] at hv
    rcases hv with rfl | rfl | rfl
    · refine ⟨1, 1, .rgb 255 0 255, ⟨by decide, by decide, .full _ _ _ _ _ ?_ ?_ ?_, by decide, ?_⟩, rfl⟩
      · rfl
      · rfl
      · rfl
      · simp [colorValue, h24]
    · refine ⟨0, 0, .rgb 255 255 255, ⟨by decide, by decide, .full _ _ _ _ _ ?_ ?_ ?_, by decide, ?_⟩, rfl⟩
      · rfl
      · rfl
      · rfl
      · simp [colorValue, h24]
    · refine ⟨1, 0, .rgb 255 0 255, ⟨by decide, by decide, .full _ _ _ _ _ ?_ ?_ ?_, by decide, ?_⟩, rfl⟩
      · rfl
      · rfl
      · rfl
      · simp [colorValue, h24]
  · rintro i j c ⟨h1, h2, h3, h4, -⟩
    have h1 : i < 2 := h1
    have h2 : j < 2 := h2
    obtain ⟨r, g, b, rfl, e1, e2, e3⟩ : ∃ r g b, c = .rgb r g b ∧ graphic7.bitmap[3 * (j * 2 + i)]? = some b ∧
        graphic7.bitmap[3 * (j * 2 + i) + 1]? = some g ∧ graphic7.bitmap[3 * (j * 2 + i) + 2]? = some r := by
      cases h3 with
      | full _ _ r g b e1 e2 e3 => exact ⟨r, g, b, rfl, e1, e2, e3⟩
    have hi : i = 0 ∨ i = 1 := by omega
    have hj : j = 0 ∨ j = 1 := by omega
    rcases hi with rfl | rfl <;> rcases hj with rfl | rfl <;> simp [graphic7] at e1 e2 e3 <;> subst e1 e2 e3
    · simp [pixelRect, pixels7, corner]
    · exact absurd rfl h4
    · simp [pixelRect, pixels7, corner]
    · simp [pixelRect, pixels7, corner]

-- the hypotheses of C122, and what it tells: the message with the graphic is shown, and the message with color rectangles
-- instead has the same pages
example : ∃ xs, ShownAs graphDms graphicMsg xs ∧ ShownAs graphDms pixelsMsg xs := by
  obtain ⟨xs, hx, hn, -⟩ := summary_noError (d := graphDms) (ms := graphicMsg) (l := [(true, 60, 30, 30)]) (by decide +kernel)
  have hf : FontsOk graphDms.fontDefinition := (C20_accepts_iff _).mp (by decide +kernel)
  have hg : GraphicsOk 60 30 graphDms.graphicDefinition := (C21_accepts_iff _ 60 30).mp (by decide +kernel)
  have hof : GraphicOf graphDms 7 (some (3, 3, none)) graphic7 :=
    ⟨by simp [graphDms, testGraphics, graphic7], rfl, by simp⟩
  refine ⟨xs, ⟨hx, hn⟩, C122_repaint graphDms graphDms_size ⟨by decide, by decide, by decide, by decide, ⟨by decide, by decide⟩,
    hf.fonts, hg.graphics⟩ hf 60 30 hg graphicMsg pixelsMsg (sizesOk_short _ _ (by decide +kernel))
    (sizesOk_short _ _ (by decide +kernel)) [.text c!"A"] [.justificationLine (some .right), .text c!"B"]
    [.graphic 7 (some (3, 3, none))] pixels7 (by simp [isDrawing]) (by simp [isDrawing, pixels7]) ?_ ?_
    (C122_graphic graphDms graphDms_size 60 30 hg 7 (by decide) _ graphic7 hof (by decide +kernel) (by decide)
      (.inl (by decide +kernel)) _ pixels7_all)
    (C122_pixels graphDms graphDms_size ?_ (some (3, 3, none)) graphic7 (by decide +kernel) _ pixels7_all) xs ⟨hx, hn⟩⟩
  · rw [show slices graphicMsg = [c!"A", c!"[g7,3,3]", c!"[jl4]", c!"B"] by decide +kernel]
    repeat' first | exact Parses.nil | refine Parses.cons (by decide +kernel) ?_
  · rw [show slices pixelsMsg = [c!"A", c!"[cr4,4,1,1,255,0,255]", c!"[cr3,3,1,1,255,255,255]", c!"[cr4,3,1,1,255,0,255]",
      c!"[jl4]", c!"B"] by decide +kernel]
    repeat' first | exact Parses.nil | refine Parses.cons (by decide +kernel) ?_
  · intro r c t ht
    cases ht
    decide +kernel

-- pixels of both
example : pixels graphDms graphicMsg [(2, 2), (3, 2), (2, 3), (3, 3)] = pixels graphDms pixelsMsg [(2, 2), (3, 2), (2, 3), (3, 3)] ∧
    pixels graphDms pixelsMsg [(2, 2), (3, 2), (3, 3)] = [(255, 255, 255), (255, 0, 255), (255, 0, 255)] := by
  decide +kernel

-- a color rectangle in two parts
example : PaintAlike fullDms [.colorRectangle ⟨3, 4, 10, 5⟩ (.rgb 0 0 255)]
    [.colorRectangle ⟨3, 6, 10, 3⟩ (.rgb 0 0 255), .colorRectangle ⟨3, 4, 10, 3⟩ (.rgb 0 0 255)] := by
  refine C122_tiles fullDms (.rgb 0 0 255) [⟨3, 4, 10, 5⟩] [⟨3, 6, 10, 3⟩, ⟨3, 4, 10, 3⟩] fun i j => ?_
  simp [PixelIn, extWidth, extHeight]
  omega

end Ntcip
