import Verif.Lemmas.Fit
import Verif.Tests.Render
/-
C43, C45 – C49: layout of text, text rectangles, color rectangles.
-/
namespace Ntcip
open Spec Tests

/-! ### C43 text stays in its rectangle -/

/-- States of the iterator and pages while a page of the message is drawn: at the start of a page, after
graphics, after the text of a rectangle with more to come on the page -/
inductive Spec.Drawing (d : Dms) (ms : Str) : Pages → Raster → Prop
  | start {xs pg rs} : Steps d (Pages.new d ms) xs pg →
      updatePageState pg.defaultState pg.renderState pg.values = .ok (.ok (), rs) →
      Drawing d ms { pg with renderState := rs, pageState := .on false } (buildRaster rs)
  | graphics {pg page page'} : Drawing d ms pg page →
      renderGraphicsLoop d pg.values pg.renderState.colorCtx page = .ok page' → Drawing d ms pg page'
  | text {pg page page' pg'} : Drawing d ms pg page →
      renderTextRectangle d pg page = .ok (.ok page', pg') → Drawing d ms pg' page'

theorem drawing_ok {d ms pg page} (h : Drawing d ms pg page) :
    PagesOk d pg ∧ page.width = d.vmsCfg.signWidthPixels.toNat ∧ page.height = d.vmsCfg.signHeightPixels.toNat := by
  induction h with
  | start hs hu =>
    have hp := steps_state hs (pagesOk_new d ms)
    rw [hp.default] at hu
    obtain ⟨k1, k2, _, _⟩ := updatePageState_state hp.state hu
    refine ⟨⟨hp.default, k1, hp.items⟩, ?_, ?_⟩
    · show (buildRaster _).width = _
      simp only [buildRaster, Raster.withColor, k2]; rfl
    · show (buildRaster _).height = _
      simp only [buildRaster, Raster.withColor, k2]; rfl
  | graphics _ hg ih =>
    obtain ⟨i1, i2, i3⟩ := ih
    have := renderGraphicsLoop_painted (palette_true d) trivial hg
    exact ⟨i1, this.width.trans i2, this.height.trans i3⟩
  | text _ ht ih =>
    obtain ⟨i1, i2, i3⟩ := ih
    obtain ⟨st, values, _, _, hr⟩ := renderTextRectangle_ok ht
    have := renderTextSpans_painted hr
    exact ⟨renderTextRectangle_state i1 ht, this.width.trans i2, this.height.trans i3⟩

/-- **C43 (rectangle)** while a page is drawn, the text rectangle lies inside the page, with its corner at
a character cell. -/
theorem C43_rectangle_inside (d : Dms) (ms : Str) (pg : Pages) (page : Raster) (h : Drawing d ms pg page) :
    RectIn pg.renderState.textRectangle page.width page.height ∧ Aligned d pg.renderState.textRectangle := by
  obtain ⟨hp, h1, h2⟩ := drawing_ok h
  rw [h1, h2]
  exact ⟨hp.state.rectIn, hp.state.aligned⟩

theorem font_number {t : FontTable} {s : Span} {f : Font} (h : FontOf t s f) :
    f ∈ t ∧ f.number = s.state.fontNum := by
  have h := h.1
  unfold FontTable.font at h
  exact ⟨List.mem_of_find?_eq_some h, by simpa using List.find?_some h⟩

theorem drawn_spans {d ms pg page page' pg'} (h : Drawing d ms pg page)
    (hr : renderTextRectangle d pg page = .ok (.ok page', pg')) :
    renderTextSpans d pg'.spans page = .ok page' ∧
    ∀ s ∈ pg'.spans, (StateOk d s.state ∧ ∀ ch ∈ s.str, ch.toNat ≠ 0) ∧
      s.state.textRectangle = pg.renderState.textRectangle := by
  obtain ⟨hp, h1, h2⟩ := drawing_ok h
  obtain ⟨st, values, hl, rfl, hs⟩ := renderTextRectangle_ok hr
  refine ⟨hs, fun s hsm => ?_⟩
  obtain ⟨_, _, _, hrect, _⟩ := rtrLoop_ok hl
  rw [hp.default] at hl
  obtain ⟨_, hst, _⟩ := rtrLoop_state hp.items hl hp.state
  refine ⟨hst (by simp) s hsm, ?_⟩
  rcases hrect s hsm with hx | hx
  · simp at hx
  · exact hx

/-- **C43 (text)** drawing the text of a rectangle, for a sign with valid fonts and font 0 not the default:
only pixels inside the text rectangle change, to the foreground color of a span.  The full claim has no
condition `hm` (text in the vertical middle of a character-matrix or line-matrix sign: font heights must be
multiples of the cell height) and allows default font 0; both are needed, see `C43_false`. -/
theorem C43_text_partial (d : Dms) (hd : FontsOk d.fontDefinition) (h0 : 1 ≤ d.multiCfg.defaultFont.toNat)
    (ms : Str) (pg pg' : Pages) (page page' : Raster) (h : Drawing d ms pg page)
    (hr : renderTextRectangle d pg page = .ok (.ok page', pg'))
    (hm : (∃ s ∈ pg'.spans, s.state.justPage = .middle) → CellFonts d pg'.spans) :
    ChangesIn (fun c => ∃ s ∈ pg'.spans, c = s.state.colorCtx.foregroundRgb)
      pg.renderState.textRectangle page page' := by
  obtain ⟨r1, r2⟩ := C43_rectangle_inside d ms pg page h
  obtain ⟨hs, hall⟩ := drawn_spans h hr
  unfold renderTextSpans at hs
  split at hs
  · simp at hs
  · refine renderSpansLoop_ok hs (fun s h => h) ?_ (fun s hs => (hall s hs).1.2) (fun s hs => (hall s hs).2)
      r2 r1 hm
    intro s hs f hf
    obtain ⟨f1, f2⟩ := font_number hf
    refine hd.fonts f f1 ?_
    have := (hall s hs).1.1.font h0
    rw [f2]; omega

/-- a sign with cells 10 pixels high, and a font 7 pixels high -/
def tallCellDms : Dms := { charDms with
  vmsCfg := { charDms.vmsCfg with charHeightPixels := 10, signHeightPixels := 30, charWidthPixels := 0 }
  signCfg := { charDms.signCfg with signHeight := 3000 } }

/-- Font numbers start at 1, but nothing keeps a sign from having 0 as default font: the table entry
with number 0 is not validated.  This one has a character with a bitmap of more rows than its height. -/
def badFontDms : Dms := { fullDms with
  fontDefinition := [⟨0, [], 7, 1, 1, [⟨65, 1, [0xFF, 0xFF]⟩]⟩]
  multiCfg := { fullDms.multiCfg with defaultFont := 0 } }

/-- does a message with one page light a pixel in row `y`? -/
def lit (d : Dms) (ms : Str) (y : Nat) : Option Bool :=
  match render d ms with
  | .ok [p] => some ((List.range p.raster.width).any fun x => p.raster.px x y ≠ p.raster.px 0 0)
  | _ => none

/-- **C43 fails** (1) text in the middle of rows 11–20 of a sign with cells 10 pixels high is drawn in row 4;
(2) with default font 0, text in a rectangle of rows 11–17 is drawn in row 18.  Both signs are valid. -/
theorem C43_false : (tallCellDms.intoBuilder.build .checked matches .ok _) = true ∧
    lit tallCellDms c!"[tr1,11,100,10][jp3]A" 3 = some true ∧
    (badFontDms.intoBuilder.build .checked matches .ok _) = true ∧
    lit badFontDms c!"[tr2,11,59,7]A" 17 = some true := by decide +kernel

-- the same text at the top of the rectangle is drawn in rows 11–17
example : lit tallCellDms c!"[tr1,11,100,10]A" 9 = some false ∧
    lit tallCellDms c!"[tr1,11,100,10]A" 10 = some true ∧
    lit tallCellDms c!"[tr1,11,100,10]A" 16 = some true ∧
    lit tallCellDms c!"[tr1,11,100,10]A" 17 = some false := by decide +kernel

/-! ### C45 oversize text is an error -/

/-- the line of each span fits: `W` and `H` are the size of the rectangle -/
def Spec.FitsWidth (d : Dms) (spans : List Span) (W : Nat) (s : Span) : Prop :=
  ∃ n, LineWidth d.fontDefinition none (sameLine spans s) n ∧ n ≤ W
def Spec.TooWide (d : Dms) (spans : List Span) (W : Nat) (s : Span) : Prop :=
  ∃ n, LineWidth d.fontDefinition none (sameLine spans s) n ∧ W < n ∧ n < 65536
/-- the lines with the page justification of the span fit -/
def Spec.FitsHeight (d : Dms) (spans : List Span) (H : Nat) (s : Span) : Prop :=
  ∃ n, Dense 0 (samePage spans s) n ∧
    linesHeight (decide (d.vmsCfg.charHeightPixels = 0)) d.fontDefinition (samePage spans s) (n - 1) ≤ H
def Spec.TooHigh (d : Dms) (spans : List Span) (H : Nat) (s : Span) : Prop :=
  ∃ n, Dense 0 (samePage spans s) n ∧
    H < linesHeight (decide (d.vmsCfg.charHeightPixels = 0)) d.fontDefinition (samePage spans s) (n - 1) ∧
    linesHeight (decide (d.vmsCfg.charHeightPixels = 0)) d.fontDefinition (samePage spans s) (n - 1) < 65536

theorem fits_horiz {d spans s W} (hW : s.state.textRectangle.width.toNat = W) (h : FitsWidth d spans W s) :
    ∃ p, offsetHoriz d spans s = .ok p := by
  obtain ⟨n, hl, hle⟩ := h
  obtain ⟨b, a, hs, rfl⟩ := lineWidth_hsum hl s.state.spanNumber
  have := s.state.textRectangle.width.toNat_lt
  exact ⟨(b, a), by rw [offsetHoriz_of hs (by omega), if_pos (by omega)]⟩

theorem wide_horiz {d spans s W} (hW : s.state.textRectangle.width.toNat = W) (h : TooWide d spans W s) :
    offsetHoriz d spans s = .err .textTooBig := by
  obtain ⟨n, hl, hlt, hn⟩ := h
  obtain ⟨b, a, hs, rfl⟩ := lineWidth_hsum hl s.state.spanNumber
  rw [offsetHoriz_of hs (by omega), if_neg (by omega)]

theorem fits_vert {d spans s H} (hH : s.state.textRectangle.height.toNat = H) (hs : s ∈ spans)
    (hf : ∀ s ∈ spans, ∃ f, FontOf d.fontDefinition s f) (h : FitsHeight d spans H s) :
    ∃ p, offsetVert d spans s = .ok p := by
  obtain ⟨n, hd, hle⟩ := h
  have := s.state.textRectangle.height.toNat_lt
  rw [offsetVert_of hd hs hf (by omega), if_pos (by omega)]
  exact ⟨_, rfl⟩

theorem high_vert {d spans s H} (hH : s.state.textRectangle.height.toNat = H) (hs : s ∈ spans)
    (hf : ∀ s ∈ spans, ∃ f, FontOf d.fontDefinition s f) (h : TooHigh d spans H s) :
    offsetVert d spans s = .err .textTooBig := by
  obtain ⟨n, hd, hlt, hn⟩ := h
  rw [offsetVert_of hd hs hf (by omega), if_neg (by omega)]

/-- **C45 (fits)** spans whose lines fit in the text rectangle are drawn.  The full claim is about every list
of spans; here line numbers have no gaps (`FitsHeight`) and the spans are `Sound`. -/
theorem C45_fits_partial (d : Dms) (spans : List Span) (rect : Rectangle) (page : Raster)
    (hw : Sound d spans rect) (hi : RectIn rect page.width page.height)
    (hpw : page.width < 65536) (hph : page.height < 65536)
    (hj : checkJustification spans = .ok ())
    (hx : ∀ s ∈ spans, FitsWidth d spans rect.width.toNat s)
    (hy : ∀ s ∈ spans, FitsHeight d spans rect.height.toNat s) :
    ∃ page', renderTextSpans d spans page = .ok page' := by
  have hf : ∀ s ∈ spans, ∃ f, FontOf d.fontDefinition s f := fun s hs => by
    obtain ⟨f, _, h, _⟩ := hw.fonts s hs; exact ⟨f, h⟩
  have hb : RectIn rect 65535 65535 := by
    have := hi.right; have := hi.bottom; exact ⟨hi.x, hi.y, by omega, by omega⟩
  have H := fun s hs => fits_horiz (by rw [hw.same s hs]) (hx s hs)
  have V := fun s hs => fits_vert (by rw [hw.same s hs]) hs hf (hy s hs)
  unfold renderTextSpans
  rw [hj]
  rcases renderSpansLoop_of hw hi hb spans (fun s h => h) (fun s hs => .inl (H s hs))
    (fun s hs => .inl (V s hs)) with ⟨_, h⟩ | ⟨⟨s, hs, h⟩, _⟩
  · exact h
  · obtain ⟨p, hp⟩ := H s hs
    obtain ⟨q, hq⟩ := V s hs
    rw [hp, hq] at h; simp at h

/-- **C45 (too big)** if a line is wider than the text rectangle, or the lines are higher, the error is
`TextTooBig`.  Sizes are below 65536 here (`u16`). -/
theorem C45_too_big_partial (d : Dms) (spans : List Span) (rect : Rectangle) (page : Raster)
    (hw : Sound d spans rect) (hi : RectIn rect page.width page.height)
    (hpw : page.width < 65536) (hph : page.height < 65536)
    (hj : checkJustification spans = .ok ())
    (hx : ∀ s ∈ spans, FitsWidth d spans rect.width.toNat s ∨ TooWide d spans rect.width.toNat s)
    (hy : ∀ s ∈ spans, FitsHeight d spans rect.height.toNat s ∨ TooHigh d spans rect.height.toNat s)
    (hbig : ∃ s ∈ spans, TooWide d spans rect.width.toNat s ∨ TooHigh d spans rect.height.toNat s) :
    renderTextSpans d spans page = .err .textTooBig := by
  have hf : ∀ s ∈ spans, ∃ f, FontOf d.fontDefinition s f := fun s hs => by
    obtain ⟨f, _, h, _⟩ := hw.fonts s hs; exact ⟨f, h⟩
  have hb : RectIn rect 65535 65535 := by
    have := hi.right; have := hi.bottom; exact ⟨hi.x, hi.y, by omega, by omega⟩
  have H : ∀ s ∈ spans, (∃ p, offsetHoriz d spans s = .ok p) ∨ offsetHoriz d spans s = .err .textTooBig :=
    fun s hs => (hx s hs).imp (fits_horiz (by rw [hw.same s hs])) (wide_horiz (by rw [hw.same s hs]))
  have V : ∀ s ∈ spans, (∃ p, offsetVert d spans s = .ok p) ∨ offsetVert d spans s = .err .textTooBig :=
    fun s hs => (hy s hs).imp (fits_vert (by rw [hw.same s hs]) hs hf) (high_vert (by rw [hw.same s hs]) hs hf)
  unfold renderTextSpans
  rw [hj]
  rcases renderSpansLoop_of hw hi hb spans (fun s h => h) H V with ⟨h, _⟩ | ⟨_, h⟩
  · obtain ⟨s, hs, hb⟩ := hbig
    obtain ⟨⟨p, hp⟩, ⟨q, hq⟩⟩ := h s hs
    rcases hb with hb | hb
    · rw [wide_horiz (by rw [hw.same s hs]) hb] at hp; simp at hp
    · rw [high_vert (by rw [hw.same s hs]) hs hf hb] at hq; simp at hq
  · exact h

/-- spans for the examples: "A" on line 0 and "B" on line 1 of a sign of 60×30 pixels -/
def demoSpans : List Span :=
  [⟨RenderState.new fullDms, c!"A"⟩, ⟨{ RenderState.new fullDms with lineNumber := 1 }, c!"B"⟩]

theorem demo_sound : Sound fullDms demoSpans ⟨1, 1, 60, 30⟩ where
  same := by decide +kernel
  aligned := ⟨by decide +kernel, by decide +kernel⟩
  fonts := by
    have hok : FontOk f08 := (fontValidate_iff f08).1 (by decide +kernel) |>.2
    intro s hs
    simp only [demoSpans, List.mem_cons, List.not_mem_nil, or_false] at hs
    rcases hs with rfl | rfl
    · exact ⟨f08, [(f08.character 'A').get (by decide +kernel)], ⟨by decide +kernel, by decide +kernel⟩, hok,
        by unfold Defined; decide +kernel⟩
    · exact ⟨f08, [(f08.character 'B').get (by decide +kernel)], ⟨by decide +kernel, by decide +kernel⟩, hok,
        by unfold Defined; decide +kernel⟩
  chars := by decide +kernel
  justLine := by decide +kernel
  justPage := by decide +kernel
  middle := fun _ => .inl (by decide +kernel)

-- "A" and "B" are 5 pixels wide, both lines 8 + 2 + 8 pixels high: that fits
example : ∃ page', renderTextSpans fullDms demoSpans (.withColor 60 30 (0, 0, 0)) = .ok page' := by
  refine C45_fits_partial fullDms demoSpans ⟨1, 1, 60, 30⟩ _ demo_sound
    ⟨by decide, by decide, by decide, by decide⟩ (by decide) (by decide) (by decide +kernel) ?_ ?_
  · intro s hs
    simp only [demoSpans, List.mem_cons, List.not_mem_nil, or_false] at hs
    rcases hs with rfl | rfl
    · refine ⟨5 + 0, ?_, by decide⟩
      have : sameLine demoSpans ⟨RenderState.new fullDms, c!"A"⟩ = [⟨RenderState.new fullDms, c!"A"⟩] := by
        decide +kernel
      rw [this]
      exact .first ⟨f08, [(f08.character 'A').get (by decide +kernel)],
        ⟨by decide +kernel, by decide +kernel⟩, by unfold Defined; decide +kernel, by decide +kernel⟩ .nil
    · refine ⟨5 + 0, ?_, by decide⟩
      have : sameLine demoSpans ⟨{ RenderState.new fullDms with lineNumber := 1 }, c!"B"⟩ =
        [⟨{ RenderState.new fullDms with lineNumber := 1 }, c!"B"⟩] := by decide +kernel
      rw [this]
      exact .first ⟨f08, [(f08.character 'B').get (by decide +kernel)],
        ⟨by decide +kernel, by decide +kernel⟩, by unfold Defined; decide +kernel, by decide +kernel⟩ .nil
  · intro s hs
    have : samePage demoSpans s = demoSpans := by
      simp only [demoSpans, List.mem_cons, List.not_mem_nil, or_false] at hs
      rcases hs with rfl | rfl <;> decide +kernel
    refine ⟨2, ?_, ?_⟩
    · rw [this]; exact .new rfl (.new rfl .nil)
    · rw [this]; decide +kernel

def isTooBig : Out SyntaxError (List Page) → Bool
  | .err .textTooBig => true
  | _ => false

-- boundaries: eight characters of 5 pixels (and one of 4) with spacing 2 are 54 (and 60) pixels wide; three
-- lines of 8 pixels with spacing 3 are 30 pixels high
example : pageCount (render fullDms c!"BBBBBBBBJ") = some 1 ∧
    isTooBig (render fullDms c!"BBBBBBBBB") = true ∧
    pageCount (render fullDms c!"A[nl]B[nl]C") = some 1 ∧
    pageCount (render fullDms c!"A[nl3]B[nl3]C") = some 1 ∧
    isTooBig (render fullDms c!"A[nl3]B[nl4]C") = true ∧
    isTooBig (render fullDms c!"A[nl]B[nl]C[nl]D") = true := by decide +kernel

/-! ### C46 justification geometry -/

theorem one_hsum {t s w} (h : SpanWidth t s w) : HSum t s.state.spanNumber none [s] 0 w := by
  have := HSum.first (own := s.state.spanNumber) h .nil
  simpa using this

theorem sameLine_one (s : Span) : sameLine [s] s = [s] := by simp [sameLine]
theorem samePage_one (s : Span) : samePage [s] s = [s] := by simp [samePage]

/-- **C46 (horizontal)** a single span of `w` pixels that fits, on a sign without character cells: a left span
starts at the left edge of its rectangle, a right one ends at the right edge, the margins of a centered one
differ by at most one pixel. -/
theorem C46_horizontal (d : Dms) (s : Span) (w : Nat) (hd : d.vmsCfg.charWidthPixels = 0)
    (hw : SpanWidth d.fontDefinition s w) (hle : w ≤ s.state.textRectangle.width.toNat)
    (hr : RectIn s.state.textRectangle 65535 65535)
    (hj : s.state.justLine ≠ .other ∧ s.state.justLine ≠ .full) :
    ∃ x, spanX d [s] s = .ok x ∧
      (s.state.justLine = .left → x = s.state.textRectangle.x.toNat - 1) ∧
      (s.state.justLine = .right →
        x + w = s.state.textRectangle.x.toNat - 1 + s.state.textRectangle.width.toNat) ∧
      (s.state.justLine = .center → ∃ l r, l ≤ r ∧ r ≤ l + 1 ∧
        x = s.state.textRectangle.x.toNat - 1 + l ∧
        x + w + r = s.state.textRectangle.x.toNat - 1 + s.state.textRectangle.width.toNat) := by
  have h1 := hr.x
  have h2 := hr.right
  have hcell : (signCellWidth d) = 1 := by unfold signCellWidth; rw [hd]; rfl
  have ho : offsetHoriz d [s] s = .ok (0, w) := by
    rw [offsetHoriz_of (b := 0) (a := w) (by rw [sameLine_one]; exact one_hsum hw) (by omega),
      if_pos (by omega)]
  unfold spanX
  cases e : s.state.justLine
  · exact absurd e hj.1
  · dsimp only
    unfold spanXLeft
    rw [sub16_eq h1, ho]
    simp only [Out.ofRes_ok, Out.ok_bind]
    rw [chk16_eq (by omega)]
    exact ⟨_, rfl, fun _ => rfl, by simp, by simp⟩
  · dsimp only
    unfold spanXCenter; simp only [cellWidth_eq]
    rw [sub16_eq h1, ho]
    simp only [Out.ofRes_ok, Out.ok_bind]
    rw [sub16_eq (by omega)]
    simp only [Out.ofRes_ok, Out.ok_bind]
    rw [sub16_eq (by omega)]
    simp only [Out.ofRes_ok, Out.ok_bind]
    rw [chk16_eq (by omega)]
    simp only [Out.ofRes_ok, Out.ok_bind]
    rw [chk16_eq (by omega)]
    simp only [Out.ofRes_ok, Out.ok_bind, hcell, Nat.div_one, Nat.mul_one]
    rw [chk16_eq (by omega)]
    refine ⟨_, rfl, by simp, by simp, fun _ => ⟨(s.state.textRectangle.width.toNat - w) / 2,
      s.state.textRectangle.width.toNat - w - (s.state.textRectangle.width.toNat - w) / 2, ?_⟩⟩
    omega
  · dsimp only
    unfold spanXRight
    rw [sub16_eq h1, ho]
    simp only [Out.ofRes_ok, Out.ok_bind]
    rw [chk16_eq (by omega)]
    simp only [Out.ofRes_ok, Out.ok_bind]
    rw [sub16_eq (by omega)]
    exact ⟨_, rfl, by simp, fun _ => by omega, by simp⟩
  · exact absurd e hj.2

/-- **C46 (vertical)** a single span in a font of height `h` that fits: at the top it starts at the top edge, at
the bottom it ends at the bottom edge, in the middle the margins differ by at most one pixel. -/
theorem C46_vertical (d : Dms) (s : Span) (f : Font) (hd : d.vmsCfg.charHeightPixels = 0)
    (hf : FontOf d.fontDefinition s f) (hle : f.height.toNat ≤ s.state.textRectangle.height.toNat)
    (hr : RectIn s.state.textRectangle 65535 65535) (hj : s.state.justPage ≠ .other) :
    ∃ y, spanY d [s] s = .ok y ∧
      (s.state.justPage = .top → y = s.state.textRectangle.y.toNat - 1) ∧
      (s.state.justPage = .bottom →
        y + f.height.toNat = s.state.textRectangle.y.toNat - 1 + s.state.textRectangle.height.toNat) ∧
      (s.state.justPage = .middle → ∃ a b, a ≤ b ∧ b ≤ a + 1 ∧
        y = s.state.textRectangle.y.toNat - 1 + a ∧
        y + f.height.toNat + b =
          s.state.textRectangle.y.toNat - 1 + s.state.textRectangle.height.toNat) := by
  have h1 := hr.y
  have h2 := hr.bottom
  have hcell : (signCellHeight d) = 1 := by unfold signCellHeight; rw [hd]; rfl
  have ho : offsetVert d [s] s = .ok (f.height.toNat, 0) := by
    unfold offsetVert
    dsimp only
    rw [matchesLine_filter, samePage_one]
    have ht : textLines d.fontDefinition [s] [] = .ok [spanLine s f] :=
      textLines_cons_ok.2 ⟨f, hf, by rw [if_pos (by simp)]; rfl⟩
    rw [ht]
    simp only [Out.ok_bind]
    rw [offsetVertLoop_of (by simp [vAbove, vBelow, lineGap, spanLine]; omega)]
    simp only [vAbove, vBelow, lineGap, spanLine, Nat.zero_le, if_true, Nat.zero_add, Nat.add_zero,
      Out.ofRes_ok, Out.ok_bind]
    rw [chk16_eq (by omega)]
    simp only [Out.ofRes_ok, Out.ok_bind, Out.pure_eq]
    rw [if_pos hle]
  have hh : s.height d.fontDefinition = .ok f.height.toNat := height_ok.2 ⟨f, hf, rfl⟩
  unfold spanY baseline
  rw [hh]
  cases e : s.state.justPage
  · exact absurd e hj
  · dsimp only
    unfold baselineTop
    rw [sub16_eq h1, ho]
    simp only [Out.ofRes_ok, Out.ok_bind]
    rw [chk16_eq (by omega)]
    simp only [Out.ofRes_ok, Out.ok_bind]
    rw [sub16_eq (by omega)]
    exact ⟨_, rfl, fun _ => by omega, by simp, by simp⟩
  · dsimp only
    unfold baselineMiddle; simp only [cellHeight_eq]
    rw [sub16_eq h1, ho]
    simp only [Out.ofRes_ok, Out.ok_bind]
    rw [sub16_eq (by omega)]
    simp only [Out.ofRes_ok, Out.ok_bind]
    rw [sub16_eq (by omega)]
    simp only [Out.ofRes_ok, Out.ok_bind]
    rw [chk16_eq (by omega)]
    simp only [Out.ofRes_ok, Out.ok_bind]
    rw [chk16_eq (by omega)]
    simp only [Out.ofRes_ok, Out.ok_bind, hcell, Nat.div_one, Nat.mul_one]
    rw [chk16_eq (by omega)]
    simp only [Out.ofRes_ok, Out.ok_bind]
    rw [sub16_eq (by omega)]
    refine ⟨_, rfl, by simp, by simp, fun _ =>
      ⟨(s.state.textRectangle.height.toNat - f.height.toNat) / 2,
      s.state.textRectangle.height.toNat - f.height.toNat -
        (s.state.textRectangle.height.toNat - f.height.toNat) / 2, ?_⟩⟩
    omega
  · dsimp only
    unfold baselineBottom
    rw [sub16_eq h1, ho]
    simp only [Out.ofRes_ok, Out.ok_bind]
    rw [chk16_eq (by omega)]
    simp only [Out.ofRes_ok, Out.ok_bind]
    rw [sub16_eq (by omega)]
    simp only [Out.ofRes_ok, Out.ok_bind]
    rw [sub16_eq (by omega)]
    exact ⟨_, rfl, by simp, fun _ => by omega, by simp⟩

-- "A" (5×8 pixels) in a rectangle of 15×13 pixels at (11, 3)
example : spanX fullDms [⟨{ RenderState.new fullDms with textRectangle := ⟨11, 3, 15, 13⟩, justLine := .center },
      c!"A"⟩] ⟨{ RenderState.new fullDms with textRectangle := ⟨11, 3, 15, 13⟩, justLine := .center }, c!"A"⟩ =
      .ok (10 + 5) ∧
    spanY fullDms [⟨{ RenderState.new fullDms with textRectangle := ⟨11, 3, 15, 13⟩, justPage := .bottom },
      c!"A"⟩] ⟨{ RenderState.new fullDms with textRectangle := ⟨11, 3, 15, 13⟩, justPage := .bottom }, c!"A"⟩ =
      .ok (2 + 13 - 8) := by decide +kernel

/-! ### C47 justification order -/

/-- `b`, drawn after `a`, goes back: to an earlier page justification, or on the same line to an earlier line
justification -/
def Spec.Backwards (a b : Span) : Prop :=
  b.state.justPage.toNat < a.state.justPage.toNat ∨
  (b.state.justPage = a.state.justPage ∧ b.state.lineNumber = a.state.lineNumber ∧
    b.state.justLine.toNat < a.state.justLine.toNat)

theorem just_toNat_pos : (∀ j : JustificationPage, 1 ≤ j.toNat) ∧ (∀ j : JustificationLine, 1 ≤ j.toNat) :=
  ⟨fun j => by cases j <;> decide, fun j => by cases j <;> decide⟩

theorem checkJustLoop_cases (a : Span) (l : List Span) :
    (checkJustLoop a.state.justPage a.state.justLine a.state.lineNumber l = .ok () ∧
      ∀ i x y, (a :: l)[i]? = some x → (a :: l)[i + 1]? = some y → ¬ Backwards x y) ∨
    (checkJustLoop a.state.justPage a.state.justLine a.state.lineNumber l = .error .tagConflict ∧
      ∃ i x y, (a :: l)[i]? = some x ∧ (a :: l)[i + 1]? = some y ∧ Backwards x y) := by
  induction l generalizing a with
  | nil => exact .inl ⟨rfl, by simp⟩
  | cons b l ih =>
    rw [checkJustLoop.eq_def]
    dsimp only
    split
    · rename_i h
      exact .inr ⟨rfl, 0, a, b, rfl, rfl, h⟩
    · rename_i h
      rcases ih b with ⟨h1, h2⟩ | ⟨h1, i, x, y, h2, h3, h4⟩
      · refine .inl ⟨h1, fun i x y hx hy => ?_⟩
        cases i with
        | zero =>
          simp at hx hy; subst hx hy; exact h
        | succ i => exact h2 i x y (by simpa using hx) (by simpa using hy)
      · exact .inr ⟨h1, i + 1, x, y, by simpa using h2, by simpa using h3, h4⟩

theorem checkJustification_cases (l : List Span) :
    (checkJustification l = .ok () ∧
      ∀ i x y, l[i]? = some x → l[i + 1]? = some y → ¬ Backwards x y) ∨
    (checkJustification l = .error .tagConflict ∧
      ∃ i x y, l[i]? = some x ∧ l[i + 1]? = some y ∧ Backwards x y) := by
  cases l with
  | nil => exact .inl ⟨rfl, by simp⟩
  | cons a l =>
    have h1 := just_toNat_pos.1 a.state.justPage
    have h2 := just_toNat_pos.2 a.state.justLine
    unfold checkJustification
    rw [checkJustLoop.eq_def]
    dsimp only
    rw [if_neg]
    · exact checkJustLoop_cases a l
    · have e1 : JustificationPage.toNat .other = 1 := rfl
      have e2 : JustificationLine.toNat .other = 1 := rfl
      rw [e1, e2]; omega

/-- **C47 (adjacent)** spans are rejected with `TagConflict` exactly when one of them goes back with respect to
the span before it. -/
theorem C47_adjacent (l : List Span) (e : SyntaxError) :
    checkJustification l = .error e ↔
      e = .tagConflict ∧ ∃ i x y, l[i]? = some x ∧ l[i + 1]? = some y ∧ Backwards x y := by
  rcases checkJustification_cases l with ⟨h1, h2⟩ | ⟨h1, h2⟩
  · rw [h1]
    simp only [reduceCtorEq, false_iff, not_and]
    rintro _ ⟨i, x, y, hx, hy, hb⟩
    exact h2 i x y hx hy hb
  · rw [h1]
    simp only [Except.error.injEq]
    exact ⟨fun h => ⟨h.symm, h2⟩, fun h => h.1.symm⟩

/-- **C47 (drawing)** no page is drawn when a span goes back with respect to the span before it -/
theorem C47_rejected (d : Dms) (l : List Span) (page : Raster) (i : Nat) (x y : Span)
    (hx : l[i]? = some x) (hy : l[i + 1]? = some y) (hb : Backwards x y) :
    renderTextSpans d l page = .err .tagConflict := by
  unfold renderTextSpans
  rw [(C47_adjacent l .tagConflict).2 ⟨rfl, i, x, y, hx, hy, hb⟩]

/-- **C47 (page)** if the page justification of a span is before that of any earlier span, the spans are
rejected -/
theorem C47_page (l : List Span) (i j : Nat) (x y : Span) (hij : i < j) (hx : l[i]? = some x)
    (hy : l[j]? = some y) (hb : y.state.justPage.toNat < x.state.justPage.toNat) :
    checkJustification l = .error .tagConflict := by
  rcases checkJustification_cases l with ⟨_, h2⟩ | ⟨h1, _⟩
  · exfalso
    obtain ⟨k, rfl⟩ : ∃ k, j = i + 1 + k := ⟨j - (i + 1), by omega⟩
    clear hij
    induction k generalizing y with
    | zero => exact h2 i x y hx hy (.inl hb)
    | succ k ih =>
      obtain ⟨z, hz⟩ : ∃ z, l[i + 1 + k]? = some z := by
        have := (List.getElem?_eq_some_iff.1 hy).1
        exact ⟨_, List.getElem?_eq_getElem (by omega)⟩
      have hn := h2 (i + 1 + k) z y hz hy
      unfold Backwards at hn
      exact ih z (by omega) hz
  · exact h1

/-- line numbers do not decrease between spans of a page justification -/
def Spec.LinesInOrder (l : List Span) : Prop :=
  ∀ i x y, l[i]? = some x → l[i + 1]? = some y → x.state.justPage = y.state.justPage →
    x.state.lineNumber ≤ y.state.lineNumber

/-- **C47 (line)** if the line justification of a span is before that of any earlier span of its line, the
spans are rejected.  Here line numbers do not decrease; the full claim has no such condition, see
`C47_false`. -/
theorem C47_line_partial (l : List Span) (ho : LinesInOrder l) (i j : Nat) (x y : Span) (hij : i < j)
    (hx : l[i]? = some x) (hy : l[j]? = some y) (hp : y.state.justPage = x.state.justPage)
    (hl : y.state.lineNumber = x.state.lineNumber) (hb : y.state.justLine.toNat < x.state.justLine.toNat) :
    checkJustification l = .error .tagConflict := by
  rcases checkJustification_cases l with ⟨hok, h2⟩ | ⟨h1, _⟩
  · exfalso
    obtain ⟨k, rfl⟩ : ∃ k, j = i + 1 + k := ⟨j - (i + 1), by omega⟩
    have jinj : ∀ a b : JustificationPage, a.toNat = b.toNat → a = b := by
      intro a b; cases a <;> cases b <;> decide
    have key : ∀ (k : Nat) (y : Span), l[i + 1 + k]? = some y → y.state.justPage = x.state.justPage →
        x.state.lineNumber ≤ y.state.lineNumber ∧
        (x.state.lineNumber = y.state.lineNumber → x.state.justLine.toNat ≤ y.state.justLine.toNat) := by
      intro k
      induction k with
      | zero =>
        intro y hy hp
        have hn := h2 i x y hx hy
        unfold Backwards at hn
        have := ho i x y hx hy hp.symm
        exact ⟨this, fun e => by
          have : ¬ (y.state.justPage = x.state.justPage ∧ y.state.lineNumber = x.state.lineNumber ∧
            y.state.justLine.toNat < x.state.justLine.toNat) := fun h => hn (.inr h)
          simp only [hp, e, true_and] at this; omega⟩
      | succ k ih =>
        intro y hy hp
        obtain ⟨z, hz⟩ : ∃ z, l[i + 1 + k]? = some z := by
          have := (List.getElem?_eq_some_iff.1 hy).1
          exact ⟨_, List.getElem?_eq_getElem (by omega)⟩
        have hzp : z.state.justPage = x.state.justPage := by
          apply jinj
          have a1 : ¬ z.state.justPage.toNat < x.state.justPage.toNat := by
            intro h; rw [C47_page l i (i + 1 + k) x z (by omega) hx hz h] at hok; simp at hok
          have a2 : ¬ y.state.justPage.toNat < z.state.justPage.toNat := by
            intro h; rw [C47_page l (i + 1 + k) (i + 1 + k + 1) z y (by omega) hz hy h] at hok; simp at hok
          rw [hp] at a2; omega
        obtain ⟨i1, i2⟩ := ih z hz hzp
        have hn := h2 (i + 1 + k) z y hz hy
        unfold Backwards at hn
        have hle := ho (i + 1 + k) z y hz hy (by rw [hzp, hp])
        refine ⟨by omega, fun e => ?_⟩
        have e1 : x.state.lineNumber = z.state.lineNumber := by omega
        have := i2 e1
        have : ¬ (y.state.justPage = z.state.justPage ∧ y.state.lineNumber = z.state.lineNumber ∧
            y.state.justLine.toNat < z.state.justLine.toNat) := fun h => hn (.inr h)
        simp only [hp, hzp, ← e, e1, true_and] at this; omega
    have := (key k y hy hp).2 hl.symm
    omega
  · exact h1

/-- **C47 (only those)** rejected spans have a pair that goes back -/
theorem C47_only_those (l : List Span) (e : SyntaxError) (h : checkJustification l = .error e) :
    e = .tagConflict ∧ ∃ (i j : Nat) (x y : Span), i < j ∧ l[i]? = some x ∧ l[j]? = some y ∧ Backwards x y := by
  obtain ⟨h1, i, x, y, hx, hy, hb⟩ := (C47_adjacent l e).1 h
  exact ⟨h1, i, i + 1, x, y, by omega, hx, hy, hb⟩

def isTagConflict : Out SyntaxError (List Page) → Bool
  | .err .tagConflict => true
  | _ => false

/-- **C47 fails** line 0 has a centered span, then (after line 1, and a change of the page justification
without text) a left one.  Without line 1 it is rejected. -/
theorem C47_false : pageCount (render fullDms c!"[jl3]X[nl]A[jp4][jp2][jl2]B") = some 1 ∧
    isTagConflict (render fullDms c!"[jl3]X[jp4][jp2][jl2]B") = true := by decide +kernel

example : isTagConflict (render fullDms c!"[jl3]X[jl2]A") = true ∧
    isTagConflict (render fullDms c!"[jl3]X[nl][jl2]A") = false ∧
    isTagConflict (render fullDms c!"[jp3]X[jp2]A") = true ∧
    isTagConflict (render fullDms c!"[jp3]X[jp4]A") = false := by decide +kernel

/-! ### C48 text rectangle acceptance -/

/-- **C48** a `[tr]` tag is accepted exactly when its rectangle (zero width or height extended to the edge of
the sign) is not empty, inside of the sign and aligned to the character cells; then it is the new text
rectangle.  The full claim has no condition on overflow of `u16` (`hx`, `hy`), which is a panic
(`C48_false`); a sign must have pixels. -/
theorem C48_accepted_partial (d : Dms) (po : Bool) (st : Rtr) (r : Rectangle)
    (hW : d.vmsCfg.signWidthPixels.toNat < 65535) (hH : d.vmsCfg.signHeightPixels.toNat < 65535)
    (hd : ¬ (d.vmsCfg.signWidthPixels.toNat = 0 ∧ d.vmsCfg.signHeightPixels.toNat = 0))
    (hx : r.x.toNat + extWidth r d.vmsCfg.signWidthPixels.toNat < 65536)
    (hy : r.y.toNat + extHeight r d.vmsCfg.signHeightPixels.toNat < 65536) :
    (TextRect d d.vmsCfg.signWidthPixels.toNat d.vmsCfg.signHeightPixels.toNat r →
      ∃ r', rtrStep d (RenderState.new d) po st (.textRectangle r) =
          .ok (.brk, { st with pageState := .on false, rs := { st.rs with textRectangle := r', lineNumber := 0,
                                                                          spanNumber := 0 } }) ∧
        r'.x = r.x ∧ r'.y = r.y ∧ r'.width.toNat = extWidth r d.vmsCfg.signWidthPixels.toNat ∧
        r'.height.toNat = extHeight r d.vmsCfg.signHeightPixels.toNat) ∧
    (¬ TextRect d d.vmsCfg.signWidthPixels.toNat d.vmsCfg.signHeightPixels.toNat r →
      ∃ st', rtrStep d (RenderState.new d) po st (.textRectangle r) =
        .ok (.fail (.unsupportedTagValue (Value.textRectangle r).display), st')) := by
  obtain ⟨h1, h2⟩ := updateTextRectangle_eq (d := d) hW hH hd hx hy
  constructor
  · intro h
    have := h1 h
    refine ⟨_, ?_, extend_x .., extend_y .., extend_width r ⟨1, 1, d.vmsCfg.signWidthPixels, d.vmsCfg.signHeightPixels⟩,
      extend_height r ⟨1, 1, d.vmsCfg.signWidthPixels, d.vmsCfg.signHeightPixels⟩⟩
    unfold rtrStep
    show (updateTextRectangle d ⟨1, 1, d.vmsCfg.signWidthPixels, d.vmsCfg.signHeightPixels⟩ r >>= _) = _
    rw [this]; rfl
  · intro h
    have := h2 h
    refine ⟨{ st with pageState := .on false }, ?_⟩
    unfold rtrStep
    show (updateTextRectangle d ⟨1, 1, d.vmsCfg.signWidthPixels, d.vmsCfg.signHeightPixels⟩ r >>= _) = _
    rw [this]; rfl

def panics : Out SyntaxError (List Page) → Option Panic
  | .panic p => some p
  | _ => none

/-- **C48 (overflow)** all other rectangles, on any sign: a panic (in a profile with overflow checks) -/
theorem C48_overflow (d : Dms) (po : Bool) (st : Rtr) (r : Rectangle)
    (h : 65536 ≤ r.x.toNat + extWidth r d.vmsCfg.signWidthPixels.toNat ∨ 65536 ≤ r.y.toNat + extHeight r d.vmsCfg.signHeightPixels.toNat ∨
      d.vmsCfg.signWidthPixels.toNat = 65535 ∨ d.vmsCfg.signHeightPixels.toNat = 65535) :
    rtrStep d (RenderState.new d) po st (.textRectangle r) = .panic .overflow := by
  unfold rtrStep
  show (updateTextRectangle d ⟨1, 1, d.vmsCfg.signWidthPixels, d.vmsCfg.signHeightPixels⟩ r >>= _) = _
  unfold updateTextRectangle
  dsimp only
  rw [intersection_panic]
  · rfl
  · rw [extend_x, extend_y, extend_width, extend_height]
    exact h

/-- **C48 fails** the edge of the rectangle overflows `u16`: a panic (in a profile with overflow checks) -/
theorem C48_false : panics (render fullDms c!"[tr65535,1,1,1]") = some .overflow := by decide +kernel

-- the boundaries, on a sign of 60×30 pixels and on one with cells of 5×7 pixels
example : TextRect fullDms 60 30 ⟨60, 30, 1, 1⟩ ∧ TextRect fullDms 60 30 ⟨11, 11, 0, 0⟩ ∧
    ¬ TextRect fullDms 60 30 ⟨60, 30, 2, 1⟩ ∧ ¬ TextRect fullDms 60 30 ⟨61, 30, 0, 1⟩ ∧
    TextRect charDms 100 21 ⟨6, 8, 10, 7⟩ ∧ ¬ TextRect charDms 100 21 ⟨7, 8, 10, 7⟩ ∧
    ¬ TextRect charDms 100 21 ⟨6, 8, 10, 8⟩ := by
  refine ⟨?_, ?_, ?_, ?_, ?_, ?_, ?_⟩
  · constructor <;> decide
  · constructor <;> decide
  · intro h; have := h.right; revert this; decide
  · intro h; have := h.width; revert this; decide
  · constructor <;> decide
  · intro h; have := h.left_aligned; revert this; decide
  · intro h; have := h.height_aligned; revert this; decide

/-! ### C49 color rectangles -/

/-- a rectangle (after extension to the edge) that is not empty and lies inside of `w`×`h` pixels -/
structure Spec.InsideRect (w h : Nat) (r : Rectangle) : Prop where
  x : 1 ≤ r.x.toNat
  y : 1 ≤ r.y.toNat
  width : 0 < extWidth r w
  height : 0 < extHeight r h
  right : r.x.toNat - 1 + extWidth r w ≤ w
  bottom : r.y.toNat - 1 + extHeight r h ≤ h

/-- the pixel `(i, j)`, counted from 0, is in the extended rectangle -/
def Spec.PixelIn (w h : Nat) (r : Rectangle) (i j : Nat) : Prop :=
  r.x.toNat ≤ i + 1 ∧ i + 1 < r.x.toNat + extWidth r w ∧
  r.y.toNat ≤ j + 1 ∧ j + 1 < r.y.toNat + extHeight r h

/-- **C49** if a color rectangle is inside of the page exactly its pixels are painted; if not, it is rejected.
Without overflow of `u16`, which is a panic (`C49_false`). -/
theorem C49_fill_partial (page : Raster) (r : Rectangle) (clr : Rgb) (v : Value)
    (hW : page.width < 65535) (hH : page.height < 65535) (hd : ¬ (page.width = 0 ∧ page.height = 0))
    (hx0 : r.x ≠ 0) (hy0 : r.y ≠ 0)
    (hx : r.x.toNat + extWidth r page.width < 65536) (hy : r.y.toNat + extHeight r page.height < 65536) :
    (InsideRect page.width page.height r → ∃ page', renderRect page r clr v = .ok page' ∧
      page'.width = page.width ∧ page'.height = page.height ∧
      ∀ i j, (PixelIn page.width page.height r i j → page'.px i j = clr) ∧
        (¬ PixelIn page.width page.height r i j → page'.px i j = page.px i j)) ∧
    (¬ InsideRect page.width page.height r → renderRect page r clr v = .err (.unsupportedTagValue v.display)) := by
  have eW : (UInt16.ofNat page.width).toNat = page.width := by
    rw [UInt16.toNat_ofNat']; omega
  have eH : (UInt16.ofNat page.height).toNat = page.height := by
    rw [UInt16.toNat_ofNat']; omega
  obtain ⟨q, hq, hiff⟩ := extend_intersection (r := r) (W := .ofNat page.width) (H := .ofNat page.height)
    (by omega) (by omega) (by omega) (by rw [eW]; exact hx) (by rw [eH]; exact hy)
  unfold renderRect
  rw [if_neg (by simp [hx0, hy0]), if_neg (by omega)]
  dsimp only
  rw [hq]
  simp only [Out.ofRes_ok, Out.ok_bind]
  have ew := extend_width r ⟨1, 1, .ofNat page.width, .ofNat page.height⟩
  have eh := extend_height r ⟨1, 1, .ofNat page.width, .ofNat page.height⟩
  dsimp only at ew eh
  rw [eW] at ew
  rw [eH] at eh
  rw [eW, eH] at hiff
  constructor
  · intro h
    rw [if_pos (hiff.2 ⟨h.x, h.y, h.width, h.height, h.right, h.bottom⟩)]
    refine ⟨_, rfl, rfl, rfl, fun i j => ?_⟩
    simp only [Raster.copyColor, ew, eh, extend_x, extend_y]
    have := h.x
    have := h.y
    unfold PixelIn
    constructor
    · intro hp; rw [if_pos (by omega)]
    · intro hp; rw [if_neg (by omega)]
  · intro h
    rw [if_neg fun he => h ?_]
    obtain ⟨h1, h2, h3, h4, h5, h6⟩ := hiff.1 he
    exact ⟨h1, h2, h3, h4, h5, h6⟩

/-- **C49 (tag)** the color of a `[cr]` tag is that of the tag under the color scheme of the sign, the colors of
the rest of the message are unchanged, and a color or rectangle that is not accepted ends the page. -/
theorem C49_tag (d : Dms) (s : Str) (rest : List Str) (ctx : ColorCtx) (page : Raster) (r : Rectangle) (c : Color)
    (h : tryFrom s = .ok (.ok (.colorRectangle r c))) :
    (∀ ctx', ctx.setForeground (some c) (.colorRectangle r c) = .ok ctx' →
      (∀ page', renderRect page r ctx'.foregroundRgb (.colorRectangle r c) = .ok page' →
        renderGraphicsLoop d (s :: rest) ctx page = renderGraphicsLoop d rest ctx page') ∧
      (∀ e, renderRect page r ctx'.foregroundRgb (.colorRectangle r c) = .err e →
        renderGraphicsLoop d (s :: rest) ctx page = .err e)) ∧
    (∀ e, ctx.setForeground (some c) (.colorRectangle r c) = .error e →
      renderGraphicsLoop d (s :: rest) ctx page = .err e) := by
  rw [renderGraphicsLoop, h]
  simp only [Out.ofRes_ok, Out.ok_bind, ofExcept]
  refine ⟨fun ctx' hc => ⟨fun page' hp => ?_, fun e hp => ?_⟩, fun e hc => ?_⟩
  · rw [hc]; simp only [Out.ok_bind, hp]
  · rw [hc]; simp only [Out.ok_bind, hp, Out.err_bind]
  · rw [hc]; simp only [Out.err_bind]

/-- **C49 fails** the edge of the rectangle overflows `u16`: a panic (in a profile with overflow checks) -/
theorem C49_false : panics (render fullDms c!"[cr65535,1,1,1,255,0,0]") = some .overflow := by decide +kernel

-- 2×1 pixels at (59, 30), the corner of a sign of 60×30 pixels
example : InsideRect 60 30 ⟨59, 30, 0, 1⟩ ∧ PixelIn 60 30 ⟨59, 30, 0, 1⟩ 59 29 ∧
    ¬ PixelIn 60 30 ⟨59, 30, 0, 1⟩ 57 29 ∧ ¬ InsideRect 60 30 ⟨59, 30, 3, 1⟩ := by
  refine ⟨?_, ?_, ?_, ?_⟩
  · constructor <;> decide
  · unfold PixelIn; decide
  · unfold PixelIn; decide
  · intro h; have := h.right; revert this; decide

end Ntcip
