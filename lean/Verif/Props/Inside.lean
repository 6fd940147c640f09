import Verif.Lemmas.Picture
import Verif.Props.Layout
/-
C43: exactly which text is inside of its text rectangle.
-/
namespace Ntcip
open Spec Tests

/-- the box of the drawn text `s`: its place, its width and the height of its font -/
structure Spec.TextBox (d : Dms) (spans : List Span) (s : Span) (x y w h : Nat) : Prop where
  x : ExactX d spans s x
  y : ExactY d spans s y
  width : SpanWidth d.fontDefinition s w
  height : ∃ f, FontOf d.fontDefinition s f ∧ f.height.toNat = h

/-- vertical position of a span, without condition on fonts -/
theorem spanY_below {d spans s y} (h : spanY d spans s = .ok y) (hs : s ∈ spans) :
    ∃ f, FontOf d.fontDefinition s f ∧ 1 ≤ s.state.textRectangle.y.toNat ∧
      (s.state.justPage ≠ .middle → s.state.textRectangle.y.toNat - 1 ≤ y) ∧
      y + f.height.toNat ≤ s.state.textRectangle.y.toNat - 1 + s.state.textRectangle.height.toNat := by
  by_cases hj : s.state.justPage = .middle
  · unfold spanY at h
    simp only [Out.bind_eq_ok, Out.ofRes_eq_ok, sub16_ok, height_ok] at h
    obtain ⟨bl, h, hh, ⟨f, hf, rfl⟩, hb, rfl⟩ := h
    unfold baseline at h
    rw [hj] at h
    dsimp only at h
    unfold baselineMiddle at h; simp only [cellHeight_eq] at h
    simp only [Out.bind_eq_ok, Out.ofRes_eq_ok, chk16_ok, sub16_ok] at h
    obtain ⟨l, ⟨hl, rfl⟩, ⟨a, b⟩, h1, t1, ⟨h2, rfl⟩, t2, ⟨h3, rfl⟩, t3, ⟨rfl, h6⟩, t4, ⟨rfl, h7⟩, rfl, h8⟩ := h
    obtain ⟨-, -, -, -, h4⟩ := offsetVert_ok h1
    dsimp only at *
    have hle := Nat.div_mul_le_self (s.state.textRectangle.y.toNat - 1 +
        (s.state.textRectangle.height.toNat - a - b) / 2 + a) (signCellHeight d)
    exact ⟨f, hf, hl, fun hn => absurd hj hn, by omega⟩
  · unfold spanY at h
    simp only [Out.bind_eq_ok, Out.ofRes_eq_ok, sub16_ok, height_ok] at h
    obtain ⟨bl, h, hh, ⟨f, hf, rfl⟩, hb, rfl⟩ := h
    unfold baseline at h
    split at h
    · unfold baselineTop at h
      simp only [Out.bind_eq_ok, Out.ofRes_eq_ok, chk16_ok, sub16_ok] at h
      obtain ⟨l, ⟨hl, rfl⟩, ⟨a, b⟩, h1, rfl, h2⟩ := h
      obtain ⟨-, -, -, -, h4⟩ := offsetVert_ok h1
      obtain ⟨f', hf', h5⟩ := offsetVert_own h1 hs
      obtain rfl := fontOf_unique hf hf'
      dsimp only at *
      exact ⟨f, hf, hl, fun _ => by omega, by omega⟩
    · rename_i hj'; exact absurd hj' hj
    · unfold baselineBottom at h
      simp only [Out.bind_eq_ok, Out.ofRes_eq_ok, chk16_ok, sub16_ok] at h
      obtain ⟨l, ⟨hl, rfl⟩, ⟨a, b⟩, h1, t, ⟨rfl, h2⟩, h3, rfl⟩ := h
      obtain ⟨-, -, -, -, h4⟩ := offsetVert_ok h1
      obtain ⟨f', hf', h5⟩ := offsetVert_own h1 hs
      obtain rfl := fontOf_unique hf hf'
      dsimp only at *
      exact ⟨f, hf, hl, fun _ => by omega, by omega⟩
    · simp at h

/-- only pixels of the boxes of texts `ss` differ; each has the color of such a text -/
def Spec.ChangesInBoxes (d : Dms) (spans ss : List Span) (a b : Raster) : Prop :=
  b.width = a.width ∧ b.height = a.height ∧ ∀ i j, b.px i j ≠ a.px i j → ∃ s ∈ ss, ∃ x y w h,
    TextBox d spans s x y w h ∧ (x ≤ i ∧ i < x + w ∧ y ≤ j ∧ j < y + h) ∧
    b.px i j = s.state.colorCtx.foregroundRgb

theorem renderSpansLoop_boxes {d : Dms} {spans ss : List Span} {page r : Raster} {rect : Rectangle}
    (h : renderSpansLoop d spans ss page = .ok r) (hsub : ∀ s ∈ ss, s ∈ spans)
    (hf : ∀ s ∈ spans, ∀ f, FontOf d.fontDefinition s f → FontOk f)
    (hn : ∀ s ∈ spans, ∀ ch ∈ s.str, ch.toNat ≠ 0)
    (hr : ∀ s ∈ spans, s.state.textRectangle = rect)
    (ha : Aligned d rect) (hi : RectIn rect page.width page.height) :
    ChangesInBoxes d spans ss page r ∧ ∀ s ∈ ss, ∃ x y w h, TextBox d spans s x y w h ∧
      rect.x.toNat - 1 ≤ x ∧ x + w ≤ rect.x.toNat - 1 + rect.width.toNat ∧
      y + h ≤ rect.y.toNat - 1 + rect.height.toNat ∧ (s.state.justPage ≠ .middle → rect.y.toNat - 1 ≤ y) := by
  induction ss generalizing page with
  | nil =>
    simp only [renderSpansLoop, Out.ok.injEq] at h
    subst h
    exact ⟨⟨rfl, rfl, by simp⟩, by simp⟩
  | cons s ss ih =>
    simp only [renderSpansLoop, Out.bind_eq_ok] at h
    obtain ⟨x, hx, y, hy, f, hff, r1, hr1, h⟩ := h
    have hs := hsub s (List.mem_cons_self ..)
    have e := hr s hs
    obtain ⟨w, hw, x1, x2, x3⟩ := spanX_inside hx hs (by rw [e]; exact ha.x)
    obtain ⟨f2, hf2, y1, y2, y3⟩ := spanY_below hy hs
    have hfo := font_ok.1 hff
    obtain rfl := fontOf_unique hfo hf2
    obtain ⟨f1, es, hf1, hd, ew⟩ := id hw
    obtain rfl := fontOf_unique hfo hf1
    rw [e] at x1 x2 x3 y1 y2 y3
    have h1 := hi.right
    have h2 := hi.bottom
    have hcs : s.charSpacingFont f = charSpacing s f := by
      unfold Span.charSpacingFont charSpacing
      split <;> rename_i h <;> simp [h]
    obtain ⟨r', hr', hc⟩ := renderText_defined f (hf s hs f hfo) x y (charSpacing s f) s.state.colorCtx.foregroundRgb
      s.str (hn s hs) es hd page (by omega) (by omega)
    unfold Span.renderText at hr1
    rw [hcs, hr'] at hr1
    simp only [Out.mapErr_ok, Out.ok.injEq] at hr1
    subst hr1
    have box : TextBox d spans s x y w f.height.toNat := ⟨spanX_exact hx, spanY_exact hs hy, hw, f, hfo, rfl⟩
    obtain ⟨⟨c1, c2, c3⟩, i2⟩ := ih h (fun s hs => hsub s (List.mem_cons_of_mem _ hs))
      (by rw [hc.width, hc.height]; exact hi)
    refine ⟨⟨c1.trans hc.width, c2.trans hc.height, fun i j hne => ?_⟩, ?_⟩
    · by_cases ee : r.px i j = r'.px i j
      · rw [ee] at hne ⊢
        obtain ⟨k1, k2⟩ := hc.px i j hne
        exact ⟨s, List.mem_cons_self .., x, y, w, _, box, by rw [ew]; exact k1, k2⟩
      · obtain ⟨s', hs', k⟩ := c3 i j ee
        exact ⟨s', List.mem_cons_of_mem _ hs', k⟩
    · intro s' hs'
      rcases List.mem_cons.1 hs' with rfl | hs'
      · exact ⟨x, y, w, _, box, x2, x3, y3, y2⟩
      · exact i2 s' hs'

/-- **C43 (boxes)** for every message on a sign with valid fonts, and font 0 not the default: the text of a rectangle
changes pixels in the boxes of its texts only, to the color of such a text; no box goes beyond the left, right and lower
edge of the text rectangle, nor, unless it is in the vertical middle, the upper edge. -/
theorem C43_boxes (d : Dms) (hd : FontsOk d.fontDefinition) (h0 : 1 ≤ d.multiCfg.defaultFont.toNat)
    (ms : Str) (pg pg' : Pages) (page page' : Raster) (h : Drawing d ms pg page)
    (hr : renderTextRectangle d pg page = .ok (.ok page', pg')) :
    let rect := pg.renderState.textRectangle
    ChangesInBoxes d pg'.spans pg'.spans page page' ∧ ∀ s ∈ pg'.spans, ∃ x y w h, TextBox d pg'.spans s x y w h ∧
      rect.x.toNat - 1 ≤ x ∧ x + w ≤ rect.x.toNat - 1 + rect.width.toNat ∧
      y + h ≤ rect.y.toNat - 1 + rect.height.toNat ∧ (s.state.justPage ≠ .middle → rect.y.toNat - 1 ≤ y) := by
  obtain ⟨r1, r2⟩ := C43_rectangle_inside d ms pg page h
  obtain ⟨hs, hall⟩ := drawn_spans h hr
  unfold renderTextSpans at hs
  split at hs
  · simp at hs
  · refine renderSpansLoop_boxes hs (fun s h => h) ?_ (fun s hs => (hall s hs).1.2) (fun s hs => (hall s hs).2) r2 r1
    intro s hs f hf
    obtain ⟨f1, f2⟩ := font_number hf
    refine hd.fonts f f1 ?_
    have := (hall s hs).1.1.font h0
    rw [f2]; omega

/-- the upper edge of a text in the vertical middle is above its text rectangle: the character cell in which its lower
edge is put begins too near to the top of the rectangle -/
def Spec.SticksOut (d : Dms) (rect : Rectangle) (spans : List Span) (s : Span) : Prop :=
  s.state.justPage = .middle ∧ ∃ f, FontOf d.fontDefinition s f ∧
    cellEdge (signCellHeight d) (rect.y.toNat - 1 + (rect.height.toNat - totalHeight d spans s) / 2 +
      countedHeight d spans s s.state.lineNumber) < rect.y.toNat - 1 + f.height.toNat

theorem textBox_unique {d spans s x y w h x' y' w' h'} (b : TextBox d spans s x y w h) (b' : TextBox d spans s x' y' w' h') :
    x = x' ∧ y = y' ∧ w = w' ∧ h = h' := by
  obtain ⟨⟨n, t, k1, k2, _, k3⟩, ⟨f, f1, _, f2⟩, w1, g, g1, g2⟩ := b
  obtain ⟨⟨n', t', l1, l2, _, l3⟩, ⟨f', f1', _, f2'⟩, w1', g', g1', g2'⟩ := b'
  obtain rfl := beforeAt_unique k1 l1
  obtain rfl := lineWidth_unique k2 l2
  obtain rfl := fontOf_unique f1 f1'
  obtain rfl := fontOf_unique g1 g1'
  exact ⟨k3.trans l3.symm, by omega, spanWidth_unique w1 w1', by omega⟩

/-- **C43 (exactly)** the box of a drawn text is inside of its text rectangle unless the text sticks out. -/
theorem C43_inside_iff (d : Dms) (hd : FontsOk d.fontDefinition) (h0 : 1 ≤ d.multiCfg.defaultFont.toNat)
    (ms : Str) (pg pg' : Pages) (page page' : Raster) (hdr : Drawing d ms pg page)
    (hr : renderTextRectangle d pg page = .ok (.ok page', pg')) (s) (hs : s ∈ pg'.spans) (x y w h)
    (hb : TextBox d pg'.spans s x y w h) :
    let rect := pg.renderState.textRectangle
    (rect.x.toNat - 1 ≤ x ∧ x + w ≤ rect.x.toNat - 1 + rect.width.toNat ∧ rect.y.toNat - 1 ≤ y ∧
      y + h ≤ rect.y.toNat - 1 + rect.height.toNat) ↔ ¬ SticksOut d rect pg'.spans s := by
  intro rect
  obtain ⟨_, hall⟩ := drawn_spans hdr hr
  have er : s.state.textRectangle = rect := (hall s hs).2
  obtain ⟨x', y', w', h', hb', k1, k2, k3, k4⟩ := (C43_boxes d hd h0 ms pg pg' page page' hdr hr).2 s hs
  obtain ⟨rfl, rfl, rfl, rfl⟩ := textBox_unique hb hb'
  obtain ⟨f, hf, rfl⟩ := hb.height
  obtain ⟨f', hf', _, hy⟩ := hb.y
  obtain rfl := fontOf_unique hf hf'
  rw [er] at hy
  dsimp only at hy
  constructor
  · rintro ⟨_, _, h3, _⟩ ⟨hm, g, hg, hlt⟩
    obtain rfl := fontOf_unique hf hg
    rw [hm, if_pos rfl] at hy
    simp only [linesTop] at hy
    omega
  · intro hn
    refine ⟨k1, k2, ?_, k3⟩
    by_cases hm : s.state.justPage = .middle
    · have : ¬ _ := fun hlt => hn ⟨hm, f, hf, hlt⟩
      rw [hm, if_pos rfl] at hy
      simp only [linesTop] at hy
      omega
    · exact k4 hm

/-- **C43** with the exact condition: unless a text sticks out, only pixels inside of the text rectangle change. -/
theorem C43_text_inside (d : Dms) (hd : FontsOk d.fontDefinition) (h0 : 1 ≤ d.multiCfg.defaultFont.toNat)
    (ms : Str) (pg pg' : Pages) (page page' : Raster) (h : Drawing d ms pg page)
    (hr : renderTextRectangle d pg page = .ok (.ok page', pg'))
    (hm : ∀ s ∈ pg'.spans, ¬ SticksOut d pg.renderState.textRectangle pg'.spans s) :
    ChangesIn (fun c => ∃ s ∈ pg'.spans, c = s.state.colorCtx.foregroundRgb)
      pg.renderState.textRectangle page page' := by
  obtain ⟨⟨k1, k2, k3⟩, _⟩ := C43_boxes d hd h0 ms pg pg' page page' h hr
  refine ⟨k1, k2, fun i j hne => ?_⟩
  obtain ⟨s, hs, x, y, w, g, hb, hin, hc⟩ := k3 i j hne
  have := (C43_inside_iff d hd h0 ms pg pg' page page' h hr s hs x y w g hb).2 (hm s hs)
  exact ⟨⟨by omega, by omega, by omega, by omega⟩, s, hs, hc⟩

-- text in the middle of rows 11–20, on cells 10 pixels high: its lower edge is that of row 10
example : cellEdge 10 (11 - 1 + (10 - 7) / 2 + 7) < 11 - 1 + 7 ∧
    lit tallCellDms c!"[tr1,11,100,10][jp3]A" 2 = some false ∧ lit tallCellDms c!"[tr1,11,100,10][jp3]A" 3 = some true ∧
    lit tallCellDms c!"[tr1,11,100,10][jp3]A" 9 = some true ∧ lit tallCellDms c!"[tr1,11,100,10][jp3]A" 10 = some false := by
  decide +kernel
-- in the middle of rows 1–30 it is that of row 10, and the text is inside, though the height of the font is no
-- multiple of that of the cell
example : ¬ cellEdge 10 (1 - 1 + (30 - 7) / 2 + 7) < 1 - 1 + 7 ∧
    lit tallCellDms c!"[jp3]A" 2 = some false ∧ lit tallCellDms c!"[jp3]A" 3 = some true ∧
    lit tallCellDms c!"[jp3]A" 9 = some true ∧ lit tallCellDms c!"[jp3]A" 10 = some false := by
  decide +kernel

end Ntcip
