import Verif.Spec.Times
import Verif.Props.Hidden
/-
C114: page times do not change the pictures.
-/
namespace Ntcip
open Spec Tests

variable {d : Dms}

/-! ### page times have no effect on text and drawings -/

theorem time_attr {v : Value} (h : isTime v = true) (a t : TextAttr) : TextAttr.apply a t v = t := by
  cases v <;> first | rfl | cases h

theorem time_spacing {v : Value} (h : isTime v = true) (sp) : spacingAfter sp v = sp := by
  cases v <;> first | rfl | cases h

theorem time_pieces {v : Value} (h : isTime v = true) (a t sp n b ws) :
    pieces a t sp n b (v :: ws) = pieces a t sp n b ws := by
  cases v <;> first | rfl | cases h

theorem time_numbers {v : Value} (h : isTime v = true) (a t n b ws) :
    numbers a t n b (v :: ws) = numbers a t n b ws := by
  cases v <;> first | rfl | cases h

theorem time_tidy {v : Value} (h : isTime v = true) (a t f b ws) :
    Tidy a t f b (v :: ws) ↔ Tidy a t f b ws := by
  cases v <;> first | (simp [Tidy, InOrder, TextAttr.apply, freshAfter, blankAfter]; done) | cases h

theorem time_colors {v : Value} (h : isTime v = true) (p : Colors) : p.apply d v = p := by
  cases v <;> first | rfl | cases h

theorem time_background {v : Value} (h : isTime v = true) (dflt cur : Color) (ws) :
    background dflt cur (v :: ws) = background dflt cur ws := by
  cases v <;> first | rfl | cases h

theorem time_quiet {v : Value} (h : isTime v = true) : QuietValue d v := by
  refine ⟨?_, ?_, ?_⟩
  · intro z hz
    cases z with
    | panic => exact hz
    | error e =>
      have hz : BackgroundFault d v e := hz
      cases v <;> first | (cases h; done) | (cases hz; done)
  · cases v
    case pageTime on off =>
      refine paintStop_none rfl (by simp) ?_
      intro e he
      cases he with
      | value hp _ => cases hp
    all_goals cases h
  · intro z hz
    cases z with
    | panic => exact hz
    | error e =>
      have hz : isLayout v = true := hz.1
      cases v <;> first | (cases h; done) | (cases hz; done)

theorem untimed_time {v : Value} (h : isTime v = true) (ws) : untimed (v :: ws) = untimed ws := by
  simp [untimed, h]

theorem untimed_other {v : Value} (h : isTime v = false) (ws) : untimed (v :: ws) = v :: untimed ws := by
  simp [untimed, h]

theorem untimed_attr (ws) : ∀ t : TextAttr,
    (untimed ws).foldl (TextAttr.apply (signAttr d)) t = ws.foldl (TextAttr.apply (signAttr d)) t := by
  induction ws with
  | nil => intro t; rfl
  | cons v ws ih =>
    intro t
    cases h : isTime v with
    | true => rw [untimed_time h, List.foldl_cons, time_attr h]; exact ih t
    | false => rw [untimed_other h]; exact ih _

theorem untimed_spacing (ws) : ∀ sp, (untimed ws).foldl spacingAfter sp = ws.foldl spacingAfter sp := by
  induction ws with
  | nil => intro t; rfl
  | cons v ws ih =>
    intro t
    cases h : isTime v with
    | true => rw [untimed_time h, List.foldl_cons, time_spacing h]; exact ih t
    | false => rw [untimed_other h]; exact ih _

theorem untimed_background (dflt ws) : ∀ cur : Color, background dflt cur (untimed ws) = background dflt cur ws := by
  induction ws with
  | nil => intro t; rfl
  | cons v ws ih =>
    intro t
    cases h : isTime v with
    | true => rw [untimed_time h, time_background h]; exact ih t
    | false => rw [untimed_other h]; exact ih _

theorem untimed_pieces (ws) : ∀ z t sp n bl, pieces z t sp n bl (untimed ws) = pieces z t sp n bl ws := by
  induction ws with
  | nil => intro z t sp n bl; rfl
  | cons v ws ih =>
    intro z t sp n bl
    cases h : isTime v with
    | true => rw [untimed_time h, time_pieces h]; exact ih ..
    | false => rw [untimed_other h]; unfold pieces; exact congrArg _ (ih ..)

theorem untimed_numbers (ws) : ∀ z t n bl, numbers z t n bl (untimed ws) = numbers z t n bl ws := by
  induction ws with
  | nil => intro z t n bl; rfl
  | cons v ws ih =>
    intro z t n bl
    cases h : isTime v with
    | true => rw [untimed_time h, time_numbers h]; exact ih ..
    | false => rw [untimed_other h]; unfold numbers; exact congrArg _ (ih ..)

theorem untimed_tidy (ws) : ∀ z t f bl, Tidy z t f bl (untimed ws) ↔ Tidy z t f bl ws := by
  induction ws with
  | nil => intro z t n bl; rfl
  | cons v ws ih =>
    intro z t n bl
    cases h : isTime v with
    | true => rw [untimed_time h, time_tidy h]; exact ih ..
    | false => rw [untimed_other h]; unfold Tidy; exact and_congr Iff.rfl (ih ..)

theorem untimed_textDrawn {t sp rect ws u w} :
    TextDrawn d t sp rect (untimed ws) u w ↔ TextDrawn d t sp rect ws u w := by
  unfold TextDrawn
  rw [untimed_pieces, untimed_numbers, untimed_tidy]

theorem untimed_layered {W H : Nat} (ws) : ∀ {p i j o}, Layered d W H p (untimed ws) i j o ↔ Layered d W H p ws i j o := by
  induction ws with
  | nil => intro p i j o; rfl
  | cons v ws ih =>
    intro p i j o
    cases h : isTime v with
    | true =>
      rw [untimed_time h, ih]
      constructor
      · intro k
        have := Layered.cons (p := p) (Layer.other (d := d) (W := W) (H := H) (p := p) (v := v) (i := i) (j := j)
          (by rintro r c rfl; cases h) (by rintro n pos rfl; cases h)) (by rw [time_colors h]; exact k)
        simpa using this
      · intro k
        cases k with
        | cons k1 k2 =>
          rw [time_colors h] at k2
          cases k1 with
          | other _ _ => simpa using k2
          | rect _ => cases h
          | offRect _ => cases h
          | graphic _ _ _ => cases h
          | offGraphic _ _ => cases h
    | false =>
      rw [untimed_other h]
      constructor
      · intro k
        cases k with
        | cons k1 k2 => exact .cons k1 (ih.1 k2)
      · intro k
        cases k with
        | cons k1 k2 => exact .cons k1 (ih.2 k2)

theorem untimed_graphics {p ws a b} : GraphicsOn d p (untimed ws) a b ↔ GraphicsOn d p ws a b := by
  constructor
  · rintro ⟨h1, h2, h3⟩
    exact ⟨h1, h2, fun i j => by simpa only [untimed_layered] using h3 i j⟩
  · rintro ⟨h1, h2, h3⟩
    exact ⟨h1, h2, fun i j => by simpa only [untimed_layered] using h3 i j⟩

/-- the text rectangles without `[pt]` tags -/
def untimedRects (more : List (Rectangle × List Value)) : List (Rectangle × List Value) :=
  more.map fun q => (q.1, untimed q.2)

theorem untimed_composed {bg more} : ∀ {t sp rect ws u w},
    Composed d bg t sp rect (untimed ws) (untimedRects more) u w ↔ Composed d bg t sp rect ws more u w := by
  induction more with
  | nil =>
    intro t sp rect ws u w
    constructor
    · intro h
      cases h with
      | last h1 h2 => exact .last (untimed_graphics.1 h1) (untimed_textDrawn.1 h2)
    · intro h
      cases h with
      | last h1 h2 => exact .last (untimed_graphics.2 h1) (untimed_textDrawn.2 h2)
  | cons q more ih =>
    intro t sp rect ws u w
    obtain ⟨r, us⟩ := q
    constructor
    · intro h
      cases h with
      | next h1 h2 h3 =>
        rw [untimed_attr, untimed_spacing] at h3
        exact .next (untimed_graphics.1 h1) (untimed_textDrawn.1 h2) (ih.1 h3)
    · intro h
      cases h with
      | next h1 h2 h3 =>
        refine .next (untimed_graphics.2 h1) (untimed_textDrawn.2 h2) ?_
        rw [untimed_attr, untimed_spacing]
        exact ih.2 h3

theorem sections_untimed (vs) : sections (untimed vs) = (untimed (sections vs).1, untimedRects (sections vs).2) := by
  induction vs with
  | nil => rfl
  | cons v vs ih =>
    cases h : isTime v with
    | true =>
      rw [untimed_time h, sections_cons (by rintro r rfl; cases h), untimed_time h]
      exact ih
    | false =>
      rw [untimed_other h]
      by_cases hr : ∃ r, v = .textRectangle r
      · obtain ⟨r, rfl⟩ := hr
        simp only [sections, ih, untimedRects, List.map_cons]
        rfl
      · rw [sections_cons (fun r e => hr ⟨r, e⟩), sections_cons (fun r e => hr ⟨r, e⟩), ih, untimed_other h]

theorem splitPages_untimed (vs) : splitPages (untimed vs) = (splitPages vs).map untimed := by
  induction vs with
  | nil => rfl
  | cons v vs ih =>
    by_cases hn : v = .newPage
    · subst hn
      rw [untimed_other rfl]
      simp only [splitPages, if_true, List.map_cons, ih]
      rfl
    · obtain ⟨p, ps, e1, e2⟩ := splitPages_cons (vs := vs) hn
      cases h : isTime v with
      | true => rw [untimed_time h, ih, e1, e2, List.map_cons, List.map_cons, untimed_time h]
      | false =>
        rw [untimed_other h, e2, List.map_cons, untimed_other h]
        obtain ⟨p', ps', e3, e4⟩ := splitPages_cons (vs := untimed vs) hn
        rw [ih, e1, List.map_cons] at e3
        obtain ⟨rfl, rfl⟩ := List.cons.inj e3
        exact e4

theorem untimed_lastRect {more} : ∀ {rect}, lastRect d rect (untimedRects more) = lastRect d rect more := by
  induction more with
  | nil => intro rect; rfl
  | cons q more ih => intro rect; exact ih

theorem mem_untimed {v : Value} {ws} : v ∈ untimed ws ↔ v ∈ ws ∧ isTime v = false := by
  simp [untimed]

theorem untimed_all {P : Value → Prop} (hP : ∀ v, isTime v = true → P v) {ws} :
    (∀ v ∈ untimed ws, P v) ↔ ∀ v ∈ ws, P v := by
  constructor
  · intro h v hv
    cases hi : isTime v with
    | true => exact hP v hi
    | false => exact h v (mem_untimed.2 ⟨hv, hi⟩)
  · intro h v hv
    exact h v (mem_untimed.1 hv).1

theorem untimed_rectsStops {more} : ∀ {n t sp rect ws}, Silent (rectsStops d n t sp rect (untimed ws) (untimedRects more)) ↔
    Silent (rectsStops d n t sp rect ws more) := by
  have one : ∀ {t ws sp rect next}, Silent (rectStops d t sp rect (untimed ws) next) ↔
      Silent (rectStops d t sp rect ws next) := by
    intro t ws sp rect next
    unfold rectStops
    have e : layoutOf d t sp rect (untimed ws) = layoutOf d t sp rect ws := by unfold layoutOf; rw [untimed_pieces]
    simp only [silent_append, silent_map, e]
    rw [untimed_all (fun v hv => (time_quiet hv).2.1), untimed_all (fun v hv => (time_quiet hv).2.2)]
  induction more with
  | nil =>
    intro n t sp rect ws
    simp only [untimedRects, List.map_nil, rectsStops]
    rw [silent_append, silent_append, one]
  | cons q more ih =>
    intro n t sp rect ws
    obtain ⟨r, us⟩ := q
    show Silent (rectsStops d n t sp rect (untimed ws) ((r, untimed us) :: untimedRects more)) ↔ _
    unfold rectsStops
    rw [silent_append, silent_append, silent_cons, silent_cons, one, untimed_attr, untimed_spacing, ih]

theorem untimed_pageStops {t ws} : Silent (pageStops d t (untimed ws)) ↔ Silent (pageStops d t ws) := by
  unfold pageStops
  rw [silent_append, silent_map, silent_append, silent_map, sections_untimed, untimed_rectsStops,
    untimed_all (fun v hv => (time_quiet hv).1)]

theorem untimed_pagesQuiet {ps} : ∀ {t}, PagesQuiet d t (ps.map untimed) ↔ PagesQuiet d t ps := by
  induction ps with
  | nil => intro t; rfl
  | cons p ps ih =>
    intro t
    rw [List.map_cons, PagesQuiet, PagesQuiet, untimed_pageStops, untimed_attr, ih]

theorem untimed_pictured {ps} : ∀ {ps' t c c' bg xs}, ps.map untimed = ps'.map untimed →
    Pictured d t (c, bg) xs ps → ∃ ys, Pictured d t (c', bg) ys ps' ∧ onPictures ys = onPictures xs := by
  induction ps with
  | nil =>
    intro ps' t c c' bg xs h hp
    cases ps' with
    | nil => rw [Pictured] at hp; subst hp; exact ⟨[], by rw [Pictured], rfl⟩
    | cons _ _ => simp at h
  | cons p ps ih =>
    intro ps' t c c' bg xs h hp
    cases ps' with
    | nil => simp at h
    | cons p' ps' =>
      rw [List.map_cons, List.map_cons] at h
      obtain ⟨h1, h2⟩ := List.cons.inj h
      obtain ⟨raster, more, k1, k2, k3⟩ := hp
      have hs := congrArg sections h1
      rw [sections_untimed, sections_untimed] at hs
      obtain ⟨s1, s2⟩ := Prod.mk.inj hs
      have hb : background (signPage d).2 bg p' = background (signPage d).2 bg p := by
        rw [← untimed_background, ← h1, untimed_background]
      have hl : lastRect d (signRect d) (sections p').2 = lastRect d (signRect d) (sections p).2 := by
        rw [← untimed_lastRect, ← s2, untimed_lastRect]
      have ha : p'.foldl (TextAttr.apply (signAttr d)) t = p.foldl (TextAttr.apply (signAttr d)) t := by
        rw [← untimed_attr, ← h1, untimed_attr]
      obtain ⟨ys, e1, e2⟩ := ih (c' := pageTimes (signPage d).1 c' p') h2 k3
      refine ⟨_, ⟨raster, ys, ?_, rfl, ?_⟩, ?_⟩
      · simp only []
        rw [hb]
        rw [← untimed_composed, s1, s2, untimed_composed] at k1
        exact k1
      · rw [ha, hb]; exact e1
      · rw [k2]
        simp only [onPictures]
        congr 1
        split <;> split <;> simp [onPictures, e2]

theorem pictured_durations {ps} : ∀ {t c bg xs}, Pictured d t (c, bg) xs ps → durations xs = durationsOf (timesOf d c ps) := by
  induction ps with
  | nil => intro t c bg xs h; rw [Pictured] at h; subst h; rfl
  | cons p ps ih =>
    intro t c bg xs h
    obtain ⟨raster, more, _, k2, k3⟩ := h
    have := ih k3
    rw [k2]
    simp only [timesOf, durationsOf, durations]
    congr 1
    split <;> simp [durations, this]

/-- **C114** The pictures of a message do not depend on its page times.  Two messages whose values are the same apart from
`[pt]` tags are both shown or both not, on a sign with that tag, and the pictures of their ON pages are the same. -/
theorem C114_pictures (d : Dms) (hd : SizeOk d) (hok : SignOk d) (hf : FontsOk d.fontDefinition) (W H : Nat)
    (hg : GraphicsOk W H d.graphicDefinition) (ms ms' : Str) (hs : SizesOk d ms) (hs' : SizesOk d ms')
    {vs vs' : List Value} (hv : Parses (slices ms) vs) (hv' : Parses (slices ms') vs')
    (hu : untimed vs = untimed vs') (ht : d.multiCfg.supportedMultiTags .pt = true) :
    (∀ xs, ShownAs d ms xs → ∃ ys, ShownAs d ms' ys ∧ onPictures ys = onPictures xs) ∧
    ((∃ xs, ShownAs d ms xs) ↔ ∃ ys, ShownAs d ms' ys) := by
  have key : ∀ {ms ms' : Str} {vs vs' : List Value}, SizesOk d ms → SizesOk d ms' → Parses (slices ms) vs →
      Parses (slices ms') vs' → untimed vs = untimed vs' →
      ∀ xs, ShownAs d ms xs → ∃ ys, ShownAs d ms' ys ∧ onPictures ys = onPictures xs := by
    intro ms ms' vs vs' hs hs' hv hv' hu xs hx
    have hp : (splitPages vs).map untimed = (splitPages vs').map untimed := by
      rw [← splitPages_untimed, hu, splitPages_untimed]
    obtain ⟨⟨h1, h2⟩, h3⟩ := (shown_iff d hd hok hf W H hg ms hs hv xs).1 hx
    obtain ⟨ys, e1, e2⟩ := untimed_pictured (c' := (signPage d).1) hp h3
    refine ⟨ys, (shown_iff d hd hok hf W H hg ms' hs' hv' ys).2 ⟨⟨?_, ?_⟩, e1⟩, e2⟩
    · have hT : ∀ v, isTime v = true → ∀ t, v.tag = some t → d.multiCfg.supportedMultiTags t = true := by
        intro v hv t htag
        cases v
        case pageTime on off => cases htag; exact ht
        all_goals cases hv
      have := (untimed_all hT).2 h1
      rw [hu] at this
      exact (untimed_all hT).1 this
    · have := untimed_pagesQuiet.2 h2
      rw [hp] at this
      exact untimed_pagesQuiet.1 this
  refine ⟨key hs hs' hv hv' hu, ?_, ?_⟩
  · rintro ⟨xs, h⟩
    obtain ⟨ys, h, _⟩ := key hs hs' hv hv' hu xs h
    exact ⟨ys, h⟩
  · rintro ⟨xs, h⟩
    obtain ⟨ys, h, _⟩ := key hs' hs hv' hv hu.symm xs h
    exact ⟨ys, h⟩

/-- **C114 (times)** The durations of the pages depend on the page times only: each page has the times of the last `[pt]`
tag before its end, and an OFF page follows each ON page whose off-time is not zero. -/
theorem C114_times (d : Dms) (hd : SizeOk d) (hok : SignOk d) (hf : FontsOk d.fontDefinition) (W H : Nat)
    (hg : GraphicsOk W H d.graphicDefinition) (ms : Str) (hs : SizesOk d ms)
    {vs : List Value} (hv : Parses (slices ms) vs) (xs) (hx : ShownAs d ms xs) :
    durations xs = durationsOf (timesOf d (signPage d).1 (splitPages vs)) := by
  obtain ⟨_, h3⟩ := (shown_iff d hd hok hf W H hg ms hs hv xs).1 hx
  exact pictured_durations h3

/-- **C114 (built)** the pictures on a sign made by the builder, for messages of at most 128 characters -/
theorem C114_built (p : Profile) (b : DmsBuilder) (d : Dms) (h : b.build p = .ok d)
    (hw : d.vmsCfg.signWidthPixels.toNat < 65535) (hh : d.vmsCfg.signHeightPixels.toNat < 65535)
    (hz : ¬ (d.vmsCfg.signWidthPixels.toNat = 0 ∧ d.vmsCfg.signHeightPixels.toNat = 0))
    (hf : 1 ≤ d.multiCfg.defaultFont.toNat)
    (hjp : d.multiCfg.defaultJustificationPage ≠ .other)
    (hjl : d.multiCfg.defaultJustificationLine ≠ .other ∧ d.multiCfg.defaultJustificationLine ≠ .full)
    (ms ms' : Str) (hl : ms.length ≤ 128) (hl' : ms'.length ≤ 128) {vs vs' : List Value}
    (hv : Parses (slices ms) vs) (hv' : Parses (slices ms') vs') (hu : untimed vs = untimed vs')
    (ht : d.multiCfg.supportedMultiTags .pt = true) :
    (∀ xs, ShownAs d ms xs → ∃ ys, ShownAs d ms' ys ∧ onPictures ys = onPictures xs) ∧
    ((∃ xs, ShownAs d ms xs) ↔ ∃ ys, ShownAs d ms' ys) := by
  have hv1 := C22_built_sign_valid p b d h
  exact C114_pictures d ⟨hw, hh, hz⟩ ⟨hw, hh, hf, hjp, hjl, hv1.2.2.2.2.1.fonts, hv1.2.2.2.2.2.1.graphics⟩ hv1.2.2.2.2.1 _ _
    hv1.2.2.2.2.2.1 ms ms' (sizesOk_short d ms hl) (sizesOk_short d ms' hl') hv hv' hu ht

/-- a message of two pages with page times -/
def slowMsg : Str := c!"[pt50o0]A[np]B"
/-- the same with other times -/
def fastMsg : Str := c!"A[pt10o5][np][pto2]B"

theorem slow_values : Parses (slices slowMsg) [.pageTime (some 50) (some 0), .text c!"A", .newPage, .text c!"B"] := by
  rw [show slices slowMsg = [c!"[pt50o0]", c!"A", c!"[np]", c!"B"] by decide +kernel]
  exact .cons (by decide +kernel) (.cons (by decide +kernel) (.cons (by decide +kernel) (.cons (by decide +kernel) .nil)))

theorem fast_values : Parses (slices fastMsg)
    [.text c!"A", .pageTime (some 10) (some 5), .newPage, .pageTime none (some 2), .text c!"B"] := by
  rw [show slices fastMsg = [c!"A", c!"[pt10o5]", c!"[np]", c!"[pto2]", c!"B"] by decide +kernel]
  exact .cons (by decide +kernel) (.cons (by decide +kernel) (.cons (by decide +kernel) (.cons (by decide +kernel)
    (.cons (by decide +kernel) .nil))))

-- the messages show the same two pictures
example (xs) (h : ShownAs fullDms slowMsg xs) : ∃ ys, ShownAs fullDms fastMsg ys ∧ onPictures ys = onPictures xs :=
  (C114_built .checked _ fullDms fullDms_built (by decide +kernel) (by decide +kernel) (by decide +kernel)
    (by decide +kernel) (by decide) ⟨by decide, by decide⟩ slowMsg fastMsg (by decide +kernel) (by decide +kernel)
    slow_values fast_values (by decide +kernel) (by decide +kernel)).1 xs h

-- they are shown, with different times: two pages, and four
example : (summary fullDms slowMsg).map List.length = some 2 ∧
    (summary fullDms fastMsg).map List.length = some 4 := by decide +kernel

example : durationsOf (timesOf fullDms (signPage fullDms).1
    (splitPages [.text c!"A", .pageTime (some 10) (some 5), .newPage, .pageTime none (some 2), .text c!"B"])) =
    [(true, 10), (false, 5), (true, 30), (false, 2)] := by decide +kernel

end Ntcip
