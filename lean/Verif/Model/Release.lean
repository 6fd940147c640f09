import Verif.Model.Render
import Verif.Model.Pattern
/-
Model of render.rs, of `Font::text_width` and of `MessagePattern::widths` in release builds: integer arithmetic wraps
around, and `debug_assert!` is not compiled.  These are the functions of Model/Render.lean, Model/Font.lean and
Model/Pattern.lean with such arithmetic, and all functions calling them.
-/
namespace Ntcip.Release

/-- result of `u16` arithmetic in the wrapping profile, kept as a `Nat` -/
def wrap16 (n : Nat) : Res Nat := .ok (n % 65536)

/-- result of `u8` arithmetic in the wrapping profile, kept as a `Nat` -/
def wrap8 (n : Nat) : Res Nat := .ok (n % 256)

/-- `u16` subtraction in the wrapping profile -/
def subw16 (a b : Nat) : Res Nat := .ok ((a + 65536 - b) % 65536)

/-- Loop of `text_width`; font/mod.rs:234-240.  `width` is a `u16`. -/
def textWidthLoop (f : Font) (cs : Nat) : Nat → Str → Out FontError Nat
  | w, [] => .ok w
  | w, ch :: rest => match f.character ch with
    | none => .err (.invalidChar ch)
    | some c => do
      let w ← .ofRes (if w > 0 then wrap16 (w + cs) else .ok w)
      let w ← .ofRes (wrap16 (w + c.width.toNat))
      textWidthLoop f cs w rest

/-- `Font::text_width`; font/mod.rs:227-242 -/
def textWidth (f : Font) (text : Str) (cs : Option UInt16) : Out FontError Nat :=
  let cs := match cs with
    | some cs => cs.toNat
    | none => f.charSpacing.toNat
  textWidthLoop f cs 0 text

/-- `Span::width`; render.rs:262-270 -/
def spanWidth (s : Span) (fonts : FontTable) : Out SyntaxError Nat := do
  let font ← s.state.font fonts
  let cs ← s.charSpacingFonts fonts
  (textWidth font s.str (some (UInt16.ofNat cs))).mapErr FontError.toSyntax

/-- Loop of `offset_horiz`, over the spans matching `rs`; render.rs:795-813 -/
def offsetHorizLoop (fonts : FontTable) (rs : RenderState) :
    List Span → Option Span → Nat → Nat → Out SyntaxError (Nat × Nat)
  | [], _, before, after => .ok (before, after)
  | span :: rest, pspan, before, after => do
    let (before, after) ← match pspan with
      | some ps => do
        let w ← span.charSpacingBetween ps fonts
        if span.state.spanNumber ≤ rs.spanNumber then do
          let b ← .ofRes (wrap16 (before + w))
          pure (b, after)
        else do
          let a ← .ofRes (wrap16 (after + w))
          pure (before, a)
      | none => pure (before, after)
    let w ← spanWidth span fonts
    if span.state.spanNumber < rs.spanNumber then do
      let b ← .ofRes (wrap16 (before + w))
      offsetHorizLoop fonts rs rest (some span) b after
    else do
      let a ← .ofRes (wrap16 (after + w))
      offsetHorizLoop fonts rs rest (some span) before a

/-- `Pages::offset_horiz`; render.rs:786-819 -/
def offsetHoriz (d : Dms) (spans : List Span) (span : Span) : Out SyntaxError (Nat × Nat) := do
  let rs := span.state
  let (before, after) ← offsetHorizLoop d.fontDefinition rs
    (spans.filter fun s => rs.matchesSpan s.state) none 0 0
  let t ← .ofRes (wrap16 (before + after))
  if t ≤ rs.textRectangle.width.toNat then pure (before, after) else .err .textTooBig

/-- `Pages::span_x_left`; render.rs:759-764 -/
def spanXLeft (d : Dms) (spans : List Span) (span : Span) : Out SyntaxError Nat := do
  let left ← .ofRes (subw16 span.state.textRectangle.x.toNat 1)
  let (before, _) ← offsetHoriz d spans span
  .ofRes (wrap16 (left + before))

/-- `Pages::span_x_center`; render.rs:766-776 -/
def spanXCenter (d : Dms) (spans : List Span) (span : Span) : Out SyntaxError Nat := do
  let left ← .ofRes (subw16 span.state.textRectangle.x.toNat 1)
  let w := span.state.textRectangle.width.toNat
  let (before, after) ← offsetHoriz d spans span
  let t ← .ofRes (subw16 w before)
  let t ← .ofRes (subw16 t after)
  let x ← .ofRes (wrap16 (left + t / 2))
  let x ← .ofRes (wrap16 (x + before))
  .ofRes (wrap16 (x / d.cellWidth * d.cellWidth))

/-- `Pages::span_x_right`; render.rs:778-784 -/
def spanXRight (d : Dms) (spans : List Span) (span : Span) : Out SyntaxError Nat := do
  let left ← .ofRes (subw16 span.state.textRectangle.x.toNat 1)
  let w := span.state.textRectangle.width.toNat
  let (_, after) ← offsetHoriz d spans span
  let r ← .ofRes (wrap16 (left + w))
  .ofRes (subw16 r after)

/-- `Pages::span_x`; render.rs:749-757 -/
def spanX (d : Dms) (spans : List Span) (span : Span) : Out SyntaxError Nat :=
  match span.state.justLine with
  | .left => spanXLeft d spans span
  | .center => spanXCenter d spans span
  | .right => spanXRight d spans span
  | _ => .panic .unreachable

/-- Second loop of `offset_vert`; render.rs:889-907.  `ln` is the index of the first line of
the list, `prev` the line before it. -/
def offsetVertLoop (full : Bool) (sln : Nat) :
    List TextLine → Nat → Option TextLine → Nat → Nat → Res (Nat × Nat)
  | [], _, _, above, below => .ok (above, below)
  | line :: rest, ln, prev, above, below => do
    let (above, below) ← match prev with
      | some p =>
        if full then
          let h := line.spacing p
          if ln ≤ sln then do
            let a ← wrap16 (above + h)
            pure (a, below)
          else do
            let b ← wrap16 (below + h)
            pure (above, b)
        else pure (above, below)
      | none => pure (above, below)
    if ln ≤ sln then do
      let a ← wrap16 (above + line.height)
      offsetVertLoop full sln rest (ln + 1) (some line) a below
    else do
      let b ← wrap16 (below + line.height)
      offsetVertLoop full sln rest (ln + 1) (some line) above b

/-- `Pages::offset_vert`; render.rs:866-913 -/
def offsetVert (d : Dms) (spans : List Span) (span : Span) : Out SyntaxError (Nat × Nat) := do
  let rs := span.state
  let lines ← textLines d.fontDefinition (spans.filter fun s => rs.matchesLine s.state) []
  let (above, below) ← .ofRes
    (offsetVertLoop (decide (d.charHeight = 0)) rs.lineNumber lines 0 none 0 0)
  let t ← .ofRes (wrap16 (above + below))
  if t ≤ rs.textRectangle.height.toNat then pure (above, below) else .err .textTooBig

/-- `Pages::baseline_top`; render.rs:839-844 -/
def baselineTop (d : Dms) (spans : List Span) (span : Span) : Out SyntaxError Nat := do
  let top ← .ofRes (subw16 span.state.textRectangle.y.toNat 1)
  let (above, _) ← offsetVert d spans span
  .ofRes (wrap16 (top + above))

/-- `Pages::baseline_middle`; render.rs:846-856 -/
def baselineMiddle (d : Dms) (spans : List Span) (span : Span) : Out SyntaxError Nat := do
  let top ← .ofRes (subw16 span.state.textRectangle.y.toNat 1)
  let h := span.state.textRectangle.height.toNat
  let (above, below) ← offsetVert d spans span
  let t ← .ofRes (subw16 h above)
  let t ← .ofRes (subw16 t below)
  let y ← .ofRes (wrap16 (top + t / 2))
  let y ← .ofRes (wrap16 (y + above))
  .ofRes (wrap16 (y / d.cellHeight * d.cellHeight))

/-- `Pages::baseline_bottom`; render.rs:858-864 -/
def baselineBottom (d : Dms) (spans : List Span) (span : Span) : Out SyntaxError Nat := do
  let top ← .ofRes (subw16 span.state.textRectangle.y.toNat 1)
  let h := span.state.textRectangle.height.toNat
  let (_, below) ← offsetVert d spans span
  let r ← .ofRes (wrap16 (top + h))
  .ofRes (subw16 r below)

/-- `Pages::baseline`; render.rs:829-837 -/
def baseline (d : Dms) (spans : List Span) (span : Span) : Out SyntaxError Nat :=
  match span.state.justPage with
  | .top => baselineTop d spans span
  | .middle => baselineMiddle d spans span
  | .bottom => baselineBottom d spans span
  | .other => .panic .unreachable

/-- `Pages::span_y`; render.rs:821-827, without `debug_assert!` -/
def spanY (d : Dms) (spans : List Span) (span : Span) : Out SyntaxError Nat := do
  let b ← baseline d spans span
  let h ← span.height d.fontDefinition
  .ofRes (subw16 b h)

/-- Loop of `render_text_spans`; render.rs:717-722 -/
def renderSpansLoop (d : Dms) (spans : List Span) : List Span → Raster → Out SyntaxError Raster
  | [], raster => .ok raster
  | span :: rest, raster => do
    let x ← spanX d spans span
    let y ← spanY d spans span
    let font ← span.state.font d.fontDefinition
    let raster ← span.renderText raster font x y
    renderSpansLoop d spans rest raster

/-- `Pages::render_text_spans`; render.rs:714-724 -/
def renderTextSpans (d : Dms) (spans : List Span) (raster : Raster) : Out SyntaxError Raster :=
  match checkJustification spans with
  | .error e => .err e
  | .ok () => renderSpansLoop d spans spans raster

/-- `render_rect`; render.rs:930-954, without `debug_assert!` -/
def renderRect (raster : Raster) (rect : Rectangle) (clr : Rgb) (value : Value) :
    Out SyntaxError Raster :=
  if raster.width ≥ 65536 ∨ raster.height ≥ 65536 then .panic .unwrap
  else do
    let full : Rectangle := ⟨1, 1, UInt16.ofNat raster.width, UInt16.ofNat raster.height⟩
    let rect := rect.extendWidthHeight full
    let i ← .ofRes (rect.intersection .wrapping full)
    if i = rect then
      pure (raster.copyColor (rect.x.toNat - 1) (rect.y.toNat - 1) rect.width.toNat
        rect.height.toNat clr)
    else .err (.unsupportedTagValue value.display)

/-- Loop of `render_graphics`; render.rs:505-541.  Only the color context of the cloned state is
ever changed or used. -/
def renderGraphicsLoop (d : Dms) : List Str → ColorCtx → Raster → Out SyntaxError Raster
  | [], _, raster => .ok raster
  | s :: rest, ctx, raster => do
    let value ← .ofRes (tryFrom s)
    let val ← ofExcept value
    match val with
    | .colorBackground clr => do
      let ctx ← ofExcept (ctx.setBackground clr val)
      renderGraphicsLoop d rest ctx raster
    | .colorForeground clr => do
      let ctx ← ofExcept (ctx.setForeground clr val)
      renderGraphicsLoop d rest ctx raster
    | .colorRectangle rect clr => do
      let c ← ofExcept (ctx.setForeground (some clr) val)
      let raster ← renderRect raster rect c.foregroundRgb val
      renderGraphicsLoop d rest ctx raster
    | .field _ _ => .panic .unimplemented
    | .flash _ _ _ => .panic .unimplemented
    | .flashEnd => .panic .unimplemented
    | .graphic gn none => do
      let g ← lookupGraphic d gn none
      let raster ← (g.renderGraphic raster 1 1 ctx).mapErr GraphicError.toSyntax
      renderGraphicsLoop d rest ctx raster
    | .graphic gn (some (x, y, gid)) => do
      let g ← lookupGraphic d gn gid
      let raster ← (g.renderGraphic raster x.toNat y.toNat ctx).mapErr GraphicError.toSyntax
      renderGraphicsLoop d rest ctx raster
    | .manufacturerSpecific _ _ => .panic .unimplemented
    | .manufacturerSpecificEnd _ _ => .panic .unimplemented
    | .movingText _ _ _ _ _ _ => .panic .unimplemented
    | .newPage => .ok raster
    | .textRectangle _ => .ok raster
    | _ => renderGraphicsLoop d rest ctx raster

/-- `Pages::update_text_rectangle`; render.rs:691-712; `full` is the text rectangle of the
default state -/
def updateTextRectangle (d : Dms) (full rect : Rectangle) : Res (Option Rectangle) := do
  let rect := rect.extendWidthHeight full
  let i ← rect.intersection .wrapping full
  if i ≠ rect then pure none
  else do
    let x ← subw16 rect.x.toNat 1
    if x % d.cellWidth ≠ 0 ∨ rect.width.toNat % d.cellWidth ≠ 0 then pure none
    else do
      let y ← subw16 rect.y.toNat 1
      if y % d.cellHeight ≠ 0 ∨ rect.height.toNat % d.cellHeight ≠ 0 then pure none
      else pure (some rect)

/-- Loop body of `render_text_rectangle`; render.rs:575-685.
`ds` is the default state, `pageOff` as computed at render.rs:568. -/
def rtrStep (d : Dms) (ds : RenderState) (pageOff : Bool) (st : Rtr) (val : Value) :
    Res (Ctl × Rtr) :=
  let rs := st.rs
  match val with
  | .colorForeground clr => match rs.colorCtx.setForeground clr val with
    | .ok ctx => .ok (.cont, { st with rs := { rs with colorCtx := ctx } })
    | .error e => .ok (.fail e, st)
  | .font none =>
    .ok (.cont, { st with rs := { rs with fontNum := ds.fontNum, fontVersionId := ds.fontVersionId } })
  | .font (some (n, vid)) =>
    .ok (.cont, { st with rs := { rs with fontNum := n, fontVersionId := vid } })
  | .justificationLine (some .other) => .ok (.fail (.unsupportedTagValue val.display), st)
  | .justificationLine (some .full) => .ok (.fail (.unsupportedTagValue val.display), st)
  | .justificationLine jl =>
    .ok (.cont, { st with rs := { rs with justLine := jl.getD ds.justLine, spanNumber := 0 } })
  | .justificationPage (some .other) => .ok (.fail (.unsupportedTagValue val.display), st)
  | .justificationPage jp =>
    let jp := jp.getD ds.justPage
    if jp ≠ rs.justPage then
      .ok (.cont, { st with rs := { rs with justPage := jp, lineNumber := 0, spanNumber := 0 } })
    else .ok (.cont, st)
  | .newLine ls =>
    if badLineSpacing d ls then
      .ok (.fail (.unsupportedTagValue val.display), st)
    else do
      let spans := if st.lineBlank then st.spans ++ [⟨rs, []⟩] else st.spans
      let ln ← wrap8 (rs.lineNumber + 1)
      pure (.cont, { st with spans := spans, lineBlank := true,
                             rs := { rs with lineSpacing := ls, lineNumber := ln, spanNumber := 0 } })
  | .newPage => .ok (.brk, { st with pageState := .newPage pageOff })
  | .spacingCharacter sc =>
    if d.charWidth > 0 ∧ sc > 0 then .ok (.fail (.unsupportedTagValue val.display), st)
    else .ok (.cont, { st with rs := { rs with charSpacing := some sc } })
  | .spacingCharacterEnd => .ok (.cont, { st with rs := { rs with charSpacing := none } })
  | .textRectangle rect => do
    let st := { st with pageState := .on false }
    match ← updateTextRectangle d ds.textRectangle rect with
    | some r =>
      pure (.brk, { st with rs := { rs with textRectangle := r, lineNumber := 0, spanNumber := 0 } })
    | none => pure (.fail (.unsupportedTagValue val.display), st)
  | .text t => do
    let sn ← wrap8 (rs.spanNumber + 1)
    pure (.cont, { st with spans := st.spans ++ [⟨rs, t⟩], lineBlank := false,
                           rs := { rs with spanNumber := sn } })
  | .hexadecimalCharacter hc => match charFromU32 hc.toNat with
    | some c => do
      let sn ← wrap8 (rs.spanNumber + 1)
      -- `slice_to_terminator('\0')` of the `FStr<4>` is empty for U+0000
      let str := if hc = 0 then [] else [c]
      pure (.cont, { st with spans := st.spans ++ [⟨rs, str⟩], lineBlank := false,
                             rs := { rs with spanNumber := sn } })
    | none => .ok (.fail (.unsupportedTagValue val.display), st)
  | _ => .ok (.cont, st)

/-- Loop of `render_text_rectangle`; render.rs:573-686.  Returns how it ended (`fail` is an early
`return Err`), the variables, and the values left in the iterator. -/
def rtrLoop (d : Dms) (ds : RenderState) (pageOff : Bool) :
    List Str → Rtr → Res (Except SyntaxError Unit × Rtr × List Str)
  | [], st => .ok (.ok (), st, [])
  | s :: rest, st => match tryFrom s with
    | .panic p => .panic p
    | .ok (.error e) => .ok (.error e, st, rest)
    | .ok (.ok v) => match rtrStep d ds pageOff st v with
      | .panic p => .panic p
      | .ok (.cont, st) => rtrLoop d ds pageOff rest st
      | .ok (.brk, st) => .ok (.ok (), st, rest)
      | .ok (.fail e, st) => .ok (.error e, st, rest)

/-- `Pages::render_text_rectangle`; render.rs:561-689: the new raster or an error, and the new
state of the iterator -/
def renderTextRectangle (d : Dms) (pg : Pages) (raster : Raster) :
    Res (Except SyntaxError Raster × Pages) := do
  let pageOff := decide (pg.renderState.pageOffTimeDs > 0)
  let (r, st, values) ← rtrLoop d pg.defaultState pageOff pg.values
    { rs := pg.renderState, pageState := .doneState pageOff, spans := [], lineBlank := true }
  let pg := { pg with renderState := st.rs, pageState := st.pageState, spans := st.spans,
                      values := values }
  match r with
  | .error e => pure (.error e, pg)
  | .ok () => match renderTextSpans d pg.spans raster with
    | .panic p => .panic p
    | .err e => pure (.error e, pg)
    | .ok raster => pure (.ok raster, pg)

/-- Loop of `render_on_page`, `n` is `n_text_rectangles`; render.rs:446-453.  The loop leaves
with an error when `n` exceeds 50, so 51 rounds are enough (`fuel`). -/
def onPageLoop (d : Dms) : Nat → Nat → Pages → Raster → Res (Except SyntaxError Raster × Pages)
  | 0, _, pg, raster => .ok (.ok raster, pg)
  | fuel + 1, n, pg, raster =>
    if pg.pageState = .on false then
      match renderGraphicsLoop d pg.values pg.renderState.colorCtx raster with
      | .panic p => .panic p
      | .err e => .ok (.error e, pg)
      | .ok raster => do
        let (r, pg) ← renderTextRectangle d pg raster
        match r with
        | .error e => pure (.error e, pg)
        | .ok raster =>
          if n + 1 > maxTextRectangles then
            pure (.error (.other "Too many text rectangles"), pg)
          else onPageLoop d fuel (n + 1) pg raster
    else .ok (.ok raster, pg)

/-- `Pages::render_on_page`; render.rs:438-458 -/
def renderOnPage (d : Dms) (pg : Pages) : Res (Except SyntaxError Page × Pages) :=
  match checkUnsupported d pg.values with
  | .panic p => .panic p
  | .err e => .ok (.error e, pg)
  | .ok () => do
    let (r, rs) ← updatePageState pg.defaultState pg.renderState pg.values
    let pg := { pg with renderState := rs }
    match r with
    | .error e => pure (.error e, pg)
    | .ok () => do
      let raster := buildRaster pg.renderState
      let pg := { pg with pageState := .on false }
      let (r, pg) ← onPageLoop d (maxTextRectangles + 2) 0 pg raster
      match r with
      | .error e => pure (.error e, pg)
      | .ok raster => pure (.ok ⟨raster, pg.renderState.pageOnTimeDs.toNat⟩, pg)

/-- `Pages::next`; render.rs:916-928 -/
def next (d : Dms) (pg : Pages) : Res (Option (Except SyntaxError Page) × Pages) :=
  match pg.pageState with
  | .on _ => do
    let (r, pg) ← renderOnPage d pg
    pure (some r, pg)
  | .off _ => let (p, pg) := renderOffPage pg; .ok (some (.ok p), pg)
  | .done => .ok (none, pg)

/-- The first results of the iterator (at most `n`), up to the end or a panic -/
def run (d : Dms) : Nat → Pages → Res (List (Except SyntaxError Page) × Pages)
  | 0, pg => .ok ([], pg)
  | n + 1, pg => do
    let (r, pg) ← next d pg
    match r with
    | none => pure ([], pg)
    | some x => do
      let (xs, pg) ← run d n pg
      pure (x :: xs, pg)

/-- The loops of `widths`; pattern.rs:89-105.  `n` is `rect_num`, a `u8`;
`flatten` skips errors. -/
def widthsLoop (d : Dms) : List (Res (Except SyntaxError PatValue)) → Nat →
    Res (List (UInt16 × UInt8 × Nat))
  | [], _ => .ok []
  | .panic p :: _, _ => .panic p
  | .ok (.ok (.fillableRect r f)) :: rest, n => do
    let n' ← wrap8 (n + 1)
    let k ← d.rectLines r f
    let tail ← widthsLoop d rest n'
    pure (List.replicate k (r.width, f, n) ++ tail)
  | .ok _ :: rest, n => widthsLoop d rest n

/-- `MessagePattern::widths`, collected; pattern.rs:79-107 -/
def widths (d : Dms) (pat : Str) : Res (List (UInt16 × UInt8 × Nat)) :=
  widthsLoop d (patItems d pat) 0

end Ntcip.Release
