import Verif.Model.Sign
/-
Model of /repo/src/dms/render.rs.  Integer arithmetic is that of the checked profile
(overflow panics).
-/
namespace Ntcip

/-- `MAX_TEXT_RECTANGLES`; render.rs:21-22 -/
def maxTextRectangles : Nat := 50

/-- `Page`; render.rs:24-31 -/
structure Page where
  raster : Raster
  durationDs : Nat

/-- `PageState`; render.rs:33-44 -/
inductive PageState where
  | on (more : Bool)
  | off (more : Bool)
  | done
  deriving DecidableEq, Repr

/-- `RenderState`; render.rs:46-84.  `lineNumber` and `spanNumber` are `u8` counters. -/
structure RenderState where
  colorCtx : ColorCtx
  pageOnTimeDs : UInt8
  pageOffTimeDs : UInt8
  textRectangle : Rectangle
  justPage : JustificationPage
  justLine : JustificationLine
  fontNum : UInt8
  fontVersionId : Option UInt16
  lineSpacing : Option UInt8
  charSpacing : Option UInt8
  lineNumber : Nat
  spanNumber : Nat
  deriving DecidableEq, Repr

/-- `Span`; render.rs:86-94, with the string `as_str` gives (render.rs:246-252) -/
structure Span where
  state : RenderState
  str : Str
  deriving DecidableEq, Repr

/-- `TextLine`; render.rs:96-107 -/
structure TextLine where
  height : Nat
  fontSpacing : Nat
  lineSpacing : Option Nat
  deriving DecidableEq, Repr

/-- `Pages`; render.rs:125-143.  `values` are the slices the `MultiStr` iterator has still to
parse.  The sign is a parameter of the functions below. -/
structure Pages where
  defaultState : RenderState
  renderState : RenderState
  pageState : PageState
  values : List Str
  spans : List Span
  deriving DecidableEq, Repr

namespace PageState

/-- `PageState::new_page`; render.rs:146-153 -/
def newPage (pageOff : Bool) : PageState := if pageOff then .off true else .on true

/-- `PageState::done`; render.rs:155-162 -/
def doneState (pageOff : Bool) : PageState := if pageOff then .off false else .done

/-- `PageState::next_state`; render.rs:164-173 -/
def nextState : PageState → PageState
  | .on true => .off true
  | .on false => .done
  | .off true => .on false
  | .off false => .done
  | .done => .done

end PageState

/-- `From<FontError> for SyntaxError`; multi.rs:887-894 -/
def FontError.toSyntax : FontError → SyntaxError
  | .invalidChar c => .characterNotDefined c
  | _ => .other "Font error"

/-- `From<GraphicError> for SyntaxError`; multi.rs:896-903 -/
def GraphicError.toSyntax : GraphicError → SyntaxError
  | .tooBig => .other "Graphic too big"
  | _ => .other "Graphic render error"

namespace RenderState

/-- `RenderState::new`; render.rs:177-200 -/
def new (d : Dms) : RenderState where
  colorCtx := d.colorCtx
  pageOnTimeDs := d.multiCfg.defaultPageOnTime
  pageOffTimeDs := d.multiCfg.defaultPageOffTime
  textRectangle := ⟨1, 1, d.vmsCfg.signWidthPixels, d.vmsCfg.signHeightPixels⟩
  justPage := d.multiCfg.defaultJustificationPage
  justLine := d.multiCfg.defaultJustificationLine
  fontNum := d.multiCfg.defaultFont
  fontVersionId := none
  lineSpacing := none
  charSpacing := none
  lineNumber := 0
  spanNumber := 0

/-- `RenderState::matches_span`; render.rs:214-219 -/
def matchesSpan (a b : RenderState) : Bool :=
  a.justPage == b.justPage && a.lineNumber == b.lineNumber && a.justLine == b.justLine

/-- `RenderState::matches_line`; render.rs:221-224 -/
def matchesLine (a b : RenderState) : Bool := a.justPage == b.justPage

/-- `RenderState::font`; render.rs:226-242 -/
def font (s : RenderState) (fonts : FontTable) : Out SyntaxError Font :=
  match FontTable.font fonts s.fontNum, s.fontVersionId with
  | some f, some vid => if vid = f.versionId then .ok f else .err .fontVersionID
  | some f, none => .ok f
  | none, _ => .err (.fontNotDefined s.fontNum)

end RenderState

namespace Span

/-- `Span::char_spacing_fonts`; render.rs:272-282 -/
def charSpacingFonts (s : Span) (fonts : FontTable) : Out SyntaxError Nat :=
  match s.state.charSpacing with
  | some sp => .ok sp.toNat
  | none => do
    let f ← s.state.font fonts
    pure f.charSpacing.toNat

/-- `Span::width`; render.rs:262-270 -/
def width (s : Span) (fonts : FontTable) : Out SyntaxError Nat := do
  let font ← s.state.font fonts
  let cs ← s.charSpacingFonts fonts
  (font.textWidth s.str (some (UInt16.ofNat cs))).mapErr FontError.toSyntax

/-- `Span::char_spacing_font`; render.rs:284-290 -/
def charSpacingFont (s : Span) (font : Font) : Nat :=
  match s.state.charSpacing with
  | some sp => sp.toNat
  | none => font.charSpacing.toNat

/-- `Span::char_spacing_between`; render.rs:292-308.  The sum of two `u8` values fits `u16`. -/
def charSpacingBetween (s prev : Span) (fonts : FontTable) : Out SyntaxError Nat :=
  match s.state.charSpacing with
  | some c => .ok c.toNat
  | none => do
    let psc ← prev.charSpacingFonts fonts
    let sc ← s.charSpacingFonts fonts
    pure ((psc + sc) / 2 + (psc + sc) % 2)

/-- `Span::height`; render.rs:310-316 -/
def height (s : Span) (fonts : FontTable) : Out SyntaxError Nat := do
  let f ← s.state.font fonts
  pure f.height.toNat

/-- `Span::font_spacing`; render.rs:318-324 -/
def fontSpacing (s : Span) (fonts : FontTable) : Out SyntaxError Nat := do
  let f ← s.state.font fonts
  pure f.lineSpacing.toNat

/-- `Span::line_spacing`; render.rs:326-329 -/
def lineSpacing (s : Span) : Option Nat := s.state.lineSpacing.map UInt8.toNat

/-- `Span::render_text`; render.rs:331-342 -/
def renderText (s : Span) (raster : Raster) (font : Font) (x y : Nat) : Out SyntaxError Raster :=
  (font.renderText raster s.str x y (s.charSpacingFont font) s.state.colorCtx.foregroundRgb).mapErr
    FontError.toSyntax

end Span

namespace TextLine

/-- `TextLine::combine`; render.rs:355-360 -/
def combine (a b : TextLine) : TextLine :=
  ⟨max a.height b.height, max a.fontSpacing b.fontSpacing,
   match a.lineSpacing with
   | some x => some x
   | none => b.lineSpacing⟩

/-- `TextLine::line_spacing`; render.rs:362-375; `rhs` is the previous line.
The sum of two `u8` values fits `u16`. -/
def spacing (a rhs : TextLine) : Nat :=
  match a.lineSpacing with
  | some ls => ls
  | none => (rhs.fontSpacing + a.fontSpacing) / 2 + (rhs.fontSpacing + a.fontSpacing) % 2

end TextLine

/-! ### layout of the spans of a text rectangle -/

/-- `Pages::char_width`; render.rs:401-404 -/
abbrev Dms.cellWidth (d : Dms) : Nat := max d.charWidth.toNat 1

/-- `Pages::char_height`; render.rs:406-409 -/
abbrev Dms.cellHeight (d : Dms) : Nat := max d.charHeight.toNat 1

/-- ordering of `JustificationPage` (derived `Ord`) is that of the discriminants;
loop of `check_justification`; render.rs:733-745 -/
def checkJustLoop : JustificationPage → JustificationLine → Nat → List Span → Except SyntaxError Unit
  | _, _, _, [] => .ok ()
  | jp, jl, ln, span :: rest =>
    let sp := span.state.justPage
    let sl := span.state.justLine
    let n := span.state.lineNumber
    if sp.toNat < jp.toNat ∨ (sp = jp ∧ n = ln ∧ sl.toNat < jl.toNat) then .error .tagConflict
    else checkJustLoop sp sl n rest

/-- `Pages::check_justification`; render.rs:726-747 -/
def checkJustification (spans : List Span) : Except SyntaxError Unit :=
  checkJustLoop .other .other 0 spans

/-- Loop of `offset_horiz`, over the spans matching `rs`; render.rs:795-813 -/
def offsetHorizLoop (fonts : FontTable) (rs : RenderState) :
    List Span → Option Span → Nat → Nat → Out SyntaxError (Nat × Nat)
  | [], _, before, after => .ok (before, after)
  | span :: rest, pspan, before, after => do
    let (before, after) ← match pspan with
      | some ps => do
        let w ← span.charSpacingBetween ps fonts
        if span.state.spanNumber ≤ rs.spanNumber then do
          let b ← .ofRes (chk16 (before + w))
          pure (b, after)
        else do
          let a ← .ofRes (chk16 (after + w))
          pure (before, a)
      | none => pure (before, after)
    let w ← span.width fonts
    if span.state.spanNumber < rs.spanNumber then do
      let b ← .ofRes (chk16 (before + w))
      offsetHorizLoop fonts rs rest (some span) b after
    else do
      let a ← .ofRes (chk16 (after + w))
      offsetHorizLoop fonts rs rest (some span) before a

/-- `Pages::offset_horiz`; render.rs:786-819 -/
def offsetHoriz (d : Dms) (spans : List Span) (span : Span) : Out SyntaxError (Nat × Nat) := do
  let rs := span.state
  let (before, after) ← offsetHorizLoop d.fontDefinition rs
    (spans.filter fun s => rs.matchesSpan s.state) none 0 0
  let t ← .ofRes (chk16 (before + after))
  if t ≤ rs.textRectangle.width.toNat then pure (before, after) else .err .textTooBig

/-- `Pages::span_x_left`; render.rs:759-764 -/
def spanXLeft (d : Dms) (spans : List Span) (span : Span) : Out SyntaxError Nat := do
  let left ← .ofRes (sub16 span.state.textRectangle.x.toNat 1)
  let (before, _) ← offsetHoriz d spans span
  .ofRes (chk16 (left + before))

/-- `Pages::span_x_center`; render.rs:766-776 -/
def spanXCenter (d : Dms) (spans : List Span) (span : Span) : Out SyntaxError Nat := do
  let left ← .ofRes (sub16 span.state.textRectangle.x.toNat 1)
  let w := span.state.textRectangle.width.toNat
  let (before, after) ← offsetHoriz d spans span
  let t ← .ofRes (sub16 w before)
  let t ← .ofRes (sub16 t after)
  let x ← .ofRes (chk16 (left + t / 2))
  let x ← .ofRes (chk16 (x + before))
  .ofRes (chk16 (x / d.cellWidth * d.cellWidth))

/-- `Pages::span_x_right`; render.rs:778-784 -/
def spanXRight (d : Dms) (spans : List Span) (span : Span) : Out SyntaxError Nat := do
  let left ← .ofRes (sub16 span.state.textRectangle.x.toNat 1)
  let w := span.state.textRectangle.width.toNat
  let (_, after) ← offsetHoriz d spans span
  let r ← .ofRes (chk16 (left + w))
  .ofRes (sub16 r after)

/-- `Pages::span_x`; render.rs:749-757 -/
def spanX (d : Dms) (spans : List Span) (span : Span) : Out SyntaxError Nat :=
  match span.state.justLine with
  | .left => spanXLeft d spans span
  | .center => spanXCenter d spans span
  | .right => spanXRight d spans span
  | _ => .panic .unreachable

/-- `lines[ln].combine(&line)` -/
def combineAt : List TextLine → Nat → TextLine → List TextLine
  | [], _, _ => []
  | a :: rest, 0, l => a.combine l :: rest
  | a :: rest, n + 1, l => a :: combineAt rest n l

/-- First loop of `offset_vert`, over the spans matching `rs`; render.rs:873-885 -/
def textLines (fonts : FontTable) : List Span → List TextLine → Out SyntaxError (List TextLine)
  | [], lines => .ok lines
  | span :: rest, lines => do
    let h ← span.height fonts
    let fs ← span.fontSpacing fonts
    let line : TextLine := ⟨h, fs, span.lineSpacing⟩
    if span.state.lineNumber ≥ lines.length then textLines fonts rest (lines ++ [line])
    else textLines fonts rest (combineAt lines span.state.lineNumber line)

/-- Second loop of `offset_vert`; render.rs:889-907.  `ln` is the index of the first line of
the list, `prev` the line before it. -/
def offsetVertLoop (full : Bool) (sln : Nat) :
    List TextLine → Nat → Option TextLine → Nat → Nat → Res (Nat × Nat)
  | [], _, _, above, below => .ok (above, below)
  | line :: rest, ln, prev, above, below => do
    let (above, below) ← match prev with
      | some p =>
        if full then
          let h := line.spacing p
          if ln ≤ sln then do
            let a ← chk16 (above + h)
            pure (a, below)
          else do
            let b ← chk16 (below + h)
            pure (above, b)
        else pure (above, below)
      | none => pure (above, below)
    if ln ≤ sln then do
      let a ← chk16 (above + line.height)
      offsetVertLoop full sln rest (ln + 1) (some line) a below
    else do
      let b ← chk16 (below + line.height)
      offsetVertLoop full sln rest (ln + 1) (some line) above b

/-- `Pages::offset_vert`; render.rs:866-913 -/
def offsetVert (d : Dms) (spans : List Span) (span : Span) : Out SyntaxError (Nat × Nat) := do
  let rs := span.state
  let lines ← textLines d.fontDefinition (spans.filter fun s => rs.matchesLine s.state) []
  let (above, below) ← .ofRes
    (offsetVertLoop (decide (d.charHeight = 0)) rs.lineNumber lines 0 none 0 0)
  let t ← .ofRes (chk16 (above + below))
  if t ≤ rs.textRectangle.height.toNat then pure (above, below) else .err .textTooBig

/-- `Pages::baseline_top`; render.rs:839-844 -/
def baselineTop (d : Dms) (spans : List Span) (span : Span) : Out SyntaxError Nat := do
  let top ← .ofRes (sub16 span.state.textRectangle.y.toNat 1)
  let (above, _) ← offsetVert d spans span
  .ofRes (chk16 (top + above))

/-- `Pages::baseline_middle`; render.rs:846-856 -/
def baselineMiddle (d : Dms) (spans : List Span) (span : Span) : Out SyntaxError Nat := do
  let top ← .ofRes (sub16 span.state.textRectangle.y.toNat 1)
  let h := span.state.textRectangle.height.toNat
  let (above, below) ← offsetVert d spans span
  let t ← .ofRes (sub16 h above)
  let t ← .ofRes (sub16 t below)
  let y ← .ofRes (chk16 (top + t / 2))
  let y ← .ofRes (chk16 (y + above))
  .ofRes (chk16 (y / d.cellHeight * d.cellHeight))

/-- `Pages::baseline_bottom`; render.rs:858-864 -/
def baselineBottom (d : Dms) (spans : List Span) (span : Span) : Out SyntaxError Nat := do
  let top ← .ofRes (sub16 span.state.textRectangle.y.toNat 1)
  let h := span.state.textRectangle.height.toNat
  let (_, below) ← offsetVert d spans span
  let r ← .ofRes (chk16 (top + h))
  .ofRes (sub16 r below)

/-- `Pages::baseline`; render.rs:829-837 -/
def baseline (d : Dms) (spans : List Span) (span : Span) : Out SyntaxError Nat :=
  match span.state.justPage with
  | .top => baselineTop d spans span
  | .middle => baselineMiddle d spans span
  | .bottom => baselineBottom d spans span
  | .other => .panic .unreachable

/-- `Pages::span_y`; render.rs:821-827 (`debug_assert!(b >= h)` and `b - h`) -/
def spanY (d : Dms) (spans : List Span) (span : Span) : Out SyntaxError Nat := do
  let b ← baseline d spans span
  let h ← span.height d.fontDefinition
  .ofRes (sub16 b h)

/-- Loop of `render_text_spans`; render.rs:717-722 -/
def renderSpansLoop (d : Dms) (spans : List Span) : List Span → Raster → Out SyntaxError Raster
  | [], raster => .ok raster
  | span :: rest, raster => do
    let x ← spanX d spans span
    let y ← spanY d spans span
    let font ← span.state.font d.fontDefinition
    let raster ← span.renderText raster font x y
    renderSpansLoop d spans rest raster

/-- `Pages::render_text_spans`; render.rs:714-724 -/
def renderTextSpans (d : Dms) (spans : List Span) (raster : Raster) : Out SyntaxError Raster :=
  match checkJustification spans with
  | .error e => .err e
  | .ok () => renderSpansLoop d spans spans raster

/-! ### graphics and color rectangles -/

/-- `render_rect`; render.rs:930-954 -/
def renderRect (raster : Raster) (rect : Rectangle) (clr : Rgb) (value : Value) :
    Out SyntaxError Raster :=
  if rect.x = 0 ∨ rect.y = 0 then .panic .unreachable
  else if raster.width ≥ 65536 ∨ raster.height ≥ 65536 then .panic .unwrap
  else do
    let full : Rectangle := ⟨1, 1, UInt16.ofNat raster.width, UInt16.ofNat raster.height⟩
    let rect := rect.extendWidthHeight full
    let i ← .ofRes (rect.intersection .checked full)
    if i = rect then
      pure (raster.copyColor (rect.x.toNat - 1) (rect.y.toNat - 1) rect.width.toNat
        rect.height.toNat clr)
    else .err (.unsupportedTagValue value.display)

/-- `Pages::graphic`; render.rs:545-559 -/
def lookupGraphic (d : Dms) (gn : UInt8) (gid : Option UInt16) : Out SyntaxError Graphic :=
  match GraphicTable.graphic d.graphicDefinition gn, gid with
  | some g, none => .ok g
  | some g, some gid => if gid = g.versionId then .ok g else .err .graphicID
  | none, _ => .err (.graphicNotDefined gn)

/-- a `Result` inside of a function that can panic -/
def ofExcept {ε α : Type} : Except ε α → Out ε α
  | .ok a => .ok a
  | .error e => .err e

/-- Loop of `render_graphics`; render.rs:505-541.  Only the color context of the cloned state is
ever changed or used. -/
def renderGraphicsLoop (d : Dms) : List Str → ColorCtx → Raster → Out SyntaxError Raster
  | [], _, raster => .ok raster
  | s :: rest, ctx, raster => do
    let value ← .ofRes (tryFrom s)
    let val ← ofExcept value
    match val with
    | .colorBackground clr => do
      let ctx ← ofExcept (ctx.setBackground clr val)
      renderGraphicsLoop d rest ctx raster
    | .colorForeground clr => do
      let ctx ← ofExcept (ctx.setForeground clr val)
      renderGraphicsLoop d rest ctx raster
    | .colorRectangle rect clr => do
      let c ← ofExcept (ctx.setForeground (some clr) val)
      let raster ← renderRect raster rect c.foregroundRgb val
      renderGraphicsLoop d rest ctx raster
    | .field _ _ => .panic .unimplemented
    | .flash _ _ _ => .panic .unimplemented
    | .flashEnd => .panic .unimplemented
    | .graphic gn none => do
      let g ← lookupGraphic d gn none
      let raster ← (g.renderGraphic raster 1 1 ctx).mapErr GraphicError.toSyntax
      renderGraphicsLoop d rest ctx raster
    | .graphic gn (some (x, y, gid)) => do
      let g ← lookupGraphic d gn gid
      let raster ← (g.renderGraphic raster x.toNat y.toNat ctx).mapErr GraphicError.toSyntax
      renderGraphicsLoop d rest ctx raster
    | .manufacturerSpecific _ _ => .panic .unimplemented
    | .manufacturerSpecificEnd _ _ => .panic .unimplemented
    | .movingText _ _ _ _ _ _ => .panic .unimplemented
    | .newPage => .ok raster
    | .textRectangle _ => .ok raster
    | _ => renderGraphicsLoop d rest ctx raster

/-! ### text rectangles -/

/-- `Pages::update_text_rectangle`; render.rs:691-712; `full` is the text rectangle of the
default state -/
def updateTextRectangle (d : Dms) (full rect : Rectangle) : Res (Option Rectangle) := do
  let rect := rect.extendWidthHeight full
  let i ← rect.intersection .checked full
  if i ≠ rect then pure none
  else do
    let x ← sub16 rect.x.toNat 1
    if x % d.cellWidth ≠ 0 ∨ rect.width.toNat % d.cellWidth ≠ 0 then pure none
    else do
      let y ← sub16 rect.y.toNat 1
      if y % d.cellHeight ≠ 0 ∨ rect.height.toNat % d.cellHeight ≠ 0 then pure none
      else pure (some rect)

/-- The variables changed by the loop of `render_text_rectangle` -/
structure Rtr where
  rs : RenderState
  pageState : PageState
  spans : List Span
  lineBlank : Bool
  deriving DecidableEq, Repr

/-- How a round of the loop ends -/
inductive Ctl where
  | cont
  | brk
  | fail (e : SyntaxError)
  deriving DecidableEq, Repr

/-- `let Some(ls) = ls && is_char_or_line_matrix && ls > 0`; render.rs:610-613 -/
def badLineSpacing (d : Dms) : Option UInt8 → Bool
  | some ls => d.charHeight > 0 && ls > 0
  | none => false

/-- Loop body of `render_text_rectangle`; render.rs:575-685.
`ds` is the default state, `pageOff` as computed at render.rs:568. -/
def rtrStep (d : Dms) (ds : RenderState) (pageOff : Bool) (st : Rtr) (val : Value) :
    Res (Ctl × Rtr) :=
  let rs := st.rs
  match val with
  | .colorForeground clr => match rs.colorCtx.setForeground clr val with
    | .ok ctx => .ok (.cont, { st with rs := { rs with colorCtx := ctx } })
    | .error e => .ok (.fail e, st)
  | .font none =>
    .ok (.cont, { st with rs := { rs with fontNum := ds.fontNum, fontVersionId := ds.fontVersionId } })
  | .font (some (n, vid)) =>
    .ok (.cont, { st with rs := { rs with fontNum := n, fontVersionId := vid } })
  | .justificationLine (some .other) => .ok (.fail (.unsupportedTagValue val.display), st)
  | .justificationLine (some .full) => .ok (.fail (.unsupportedTagValue val.display), st)
  | .justificationLine jl =>
    .ok (.cont, { st with rs := { rs with justLine := jl.getD ds.justLine, spanNumber := 0 } })
  | .justificationPage (some .other) => .ok (.fail (.unsupportedTagValue val.display), st)
  | .justificationPage jp =>
    let jp := jp.getD ds.justPage
    if jp ≠ rs.justPage then
      .ok (.cont, { st with rs := { rs with justPage := jp, lineNumber := 0, spanNumber := 0 } })
    else .ok (.cont, st)
  | .newLine ls =>
    if badLineSpacing d ls then
      .ok (.fail (.unsupportedTagValue val.display), st)
    else do
      let spans := if st.lineBlank then st.spans ++ [⟨rs, []⟩] else st.spans
      let ln ← chk8 (rs.lineNumber + 1)
      pure (.cont, { st with spans := spans, lineBlank := true,
                             rs := { rs with lineSpacing := ls, lineNumber := ln, spanNumber := 0 } })
  | .newPage => .ok (.brk, { st with pageState := .newPage pageOff })
  | .spacingCharacter sc =>
    if d.charWidth > 0 ∧ sc > 0 then .ok (.fail (.unsupportedTagValue val.display), st)
    else .ok (.cont, { st with rs := { rs with charSpacing := some sc } })
  | .spacingCharacterEnd => .ok (.cont, { st with rs := { rs with charSpacing := none } })
  | .textRectangle rect => do
    let st := { st with pageState := .on false }
    match ← updateTextRectangle d ds.textRectangle rect with
    | some r =>
      pure (.brk, { st with rs := { rs with textRectangle := r, lineNumber := 0, spanNumber := 0 } })
    | none => pure (.fail (.unsupportedTagValue val.display), st)
  | .text t => do
    let sn ← chk8 (rs.spanNumber + 1)
    pure (.cont, { st with spans := st.spans ++ [⟨rs, t⟩], lineBlank := false,
                           rs := { rs with spanNumber := sn } })
  | .hexadecimalCharacter hc => match charFromU32 hc.toNat with
    | some c => do
      let sn ← chk8 (rs.spanNumber + 1)
      -- `slice_to_terminator('\0')` of the `FStr<4>` is empty for U+0000
      let str := if hc = 0 then [] else [c]
      pure (.cont, { st with spans := st.spans ++ [⟨rs, str⟩], lineBlank := false,
                             rs := { rs with spanNumber := sn } })
    | none => .ok (.fail (.unsupportedTagValue val.display), st)
  | _ => .ok (.cont, st)

/-- Loop of `render_text_rectangle`; render.rs:573-686.  Returns how it ended (`fail` is an early
`return Err`), the variables, and the values left in the iterator. -/
def rtrLoop (d : Dms) (ds : RenderState) (pageOff : Bool) :
    List Str → Rtr → Res (Except SyntaxError Unit × Rtr × List Str)
  | [], st => .ok (.ok (), st, [])
  | s :: rest, st => match tryFrom s with
    | .panic p => .panic p
    | .ok (.error e) => .ok (.error e, st, rest)
    | .ok (.ok v) => match rtrStep d ds pageOff st v with
      | .panic p => .panic p
      | .ok (.cont, st) => rtrLoop d ds pageOff rest st
      | .ok (.brk, st) => .ok (.ok (), st, rest)
      | .ok (.fail e, st) => .ok (.error e, st, rest)

/-- `Pages::render_text_rectangle`; render.rs:561-689: the new raster or an error, and the new
state of the iterator -/
def renderTextRectangle (d : Dms) (pg : Pages) (raster : Raster) :
    Res (Except SyntaxError Raster × Pages) := do
  let pageOff := decide (pg.renderState.pageOffTimeDs > 0)
  let (r, st, values) ← rtrLoop d pg.defaultState pageOff pg.values
    { rs := pg.renderState, pageState := .doneState pageOff, spans := [], lineBlank := true }
  let pg := { pg with renderState := st.rs, pageState := st.pageState, spans := st.spans,
                      values := values }
  match r with
  | .error e => pure (.error e, pg)
  | .ok () => match renderTextSpans d pg.spans raster with
    | .panic p => .panic p
    | .err e => pure (.error e, pg)
    | .ok raster => pure (.ok raster, pg)

/-! ### pages -/

/-- `Pages::new`; render.rs:383-394 -/
def Pages.new (d : Dms) (ms : Str) : Pages :=
  ⟨RenderState.new d, RenderState.new d, .on true, slices ms, []⟩

/-- Loop of `check_unsupported`; render.rs:461-474 -/
def checkUnsupported (d : Dms) : List Str → Out SyntaxError Unit
  | [] => .ok ()
  | s :: rest => do
    let value ← .ofRes (tryFrom s)
    let val ← ofExcept value
    match val.tag with
    | some tag =>
      if !d.multiCfg.supportedMultiTags tag then .err (.unsupportedTag val.display)
      else if tag = .np then .ok ()
      else checkUnsupported d rest
    | none => checkUnsupported d rest

/-- Loop of `update_page_state`; render.rs:485-498.  The state is also returned on error. -/
def updatePageStateLoop (ds : RenderState) :
    List Str → RenderState → Res (Except SyntaxError Unit × RenderState)
  | [], rs => .ok (.ok (), rs)
  | s :: rest, rs => match tryFrom s with
    | .panic p => .panic p
    | .ok (.error e) => .ok (.error e, rs)
    | .ok (.ok val) => match val with
      | .colorBackground clr => match rs.colorCtx.setBackground clr val with
        | .ok ctx => updatePageStateLoop ds rest { rs with colorCtx := ctx }
        | .error e => .ok (.error e, rs)
      | .pageBackground clr => match rs.colorCtx.setBackground clr val with
        | .ok ctx => updatePageStateLoop ds rest { rs with colorCtx := ctx }
        | .error e => .ok (.error e, rs)
      | .newPage => .ok (.ok (), rs)
      | .pageTime on off =>
        updatePageStateLoop ds rest { rs with pageOnTimeDs := on.getD ds.pageOnTimeDs,
                                              pageOffTimeDs := off.getD ds.pageOffTimeDs }
      | _ => updatePageStateLoop ds rest rs

/-- `Pages::update_page_state`; render.rs:476-500 -/
def updatePageState (ds rs : RenderState) (values : List Str) :
    Res (Except SyntaxError Unit × RenderState) :=
  updatePageStateLoop ds values
    { rs with textRectangle := ds.textRectangle, lineSpacing := ds.lineSpacing, lineNumber := 0,
              spanNumber := 0 }

/-- `Pages::build_raster`; render.rs:430-436 -/
def buildRaster (rs : RenderState) : Raster :=
  .withColor rs.textRectangle.width.toNat rs.textRectangle.height.toNat rs.colorCtx.backgroundRgb

/-- Loop of `render_on_page`, `n` is `n_text_rectangles`; render.rs:446-453.  The loop leaves
with an error when `n` exceeds 50, so 51 rounds are enough (`fuel`). -/
def onPageLoop (d : Dms) : Nat → Nat → Pages → Raster → Res (Except SyntaxError Raster × Pages)
  | 0, _, pg, raster => .ok (.ok raster, pg)
  | fuel + 1, n, pg, raster =>
    if pg.pageState = .on false then
      match renderGraphicsLoop d pg.values pg.renderState.colorCtx raster with
      | .panic p => .panic p
      | .err e => .ok (.error e, pg)
      | .ok raster => do
        let (r, pg) ← renderTextRectangle d pg raster
        match r with
        | .error e => pure (.error e, pg)
        | .ok raster =>
          if n + 1 > maxTextRectangles then
            pure (.error (.other "Too many text rectangles"), pg)
          else onPageLoop d fuel (n + 1) pg raster
    else .ok (.ok raster, pg)

/-- `Pages::render_on_page`; render.rs:438-458 -/
def renderOnPage (d : Dms) (pg : Pages) : Res (Except SyntaxError Page × Pages) :=
  match checkUnsupported d pg.values with
  | .panic p => .panic p
  | .err e => .ok (.error e, pg)
  | .ok () => do
    let (r, rs) ← updatePageState pg.defaultState pg.renderState pg.values
    let pg := { pg with renderState := rs }
    match r with
    | .error e => pure (.error e, pg)
    | .ok () => do
      let raster := buildRaster pg.renderState
      let pg := { pg with pageState := .on false }
      let (r, pg) ← onPageLoop d (maxTextRectangles + 2) 0 pg raster
      match r with
      | .error e => pure (.error e, pg)
      | .ok raster => pure (.ok ⟨raster, pg.renderState.pageOnTimeDs.toNat⟩, pg)

/-- `Pages::render_off_page`; render.rs:421-428 -/
def renderOffPage (pg : Pages) : Page × Pages :=
  let pg := { pg with pageState := pg.pageState.nextState }
  (⟨buildRaster pg.renderState, pg.renderState.pageOffTimeDs.toNat⟩, pg)

/-- `Pages::next`; render.rs:916-928 -/
def Pages.next (d : Dms) (pg : Pages) : Res (Option (Except SyntaxError Page) × Pages) :=
  match pg.pageState with
  | .on _ => do
    let (r, pg) ← renderOnPage d pg
    pure (some r, pg)
  | .off _ => let (p, pg) := renderOffPage pg; .ok (some (.ok p), pg)
  | .done => .ok (none, pg)

/-- The first results of the iterator (at most `n`), up to the end or a panic -/
def Pages.run (d : Dms) : Nat → Pages → Res (List (Except SyntaxError Page) × Pages)
  | 0, pg => .ok ([], pg)
  | n + 1, pg => do
    let (r, pg) ← Pages.next d pg
    match r with
    | none => pure ([], pg)
    | some x => do
      let (xs, pg) ← Pages.run d n pg
      pure (x :: xs, pg)

end Ntcip
