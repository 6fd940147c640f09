import Verif.Lemmas.Synonym
import Verif.Spec.Renumber
/-
A message rendered beside the same message with other numbers for fonts and graphics.
-/
namespace Ntcip
open Spec

theorem mapErr_bind {ε δ α β : Type} (E : ε → δ) (x : Out ε α) (f : α → Out ε β) :
    (x >>= f).mapErr E = x.mapErr E >>= fun a => (f a).mapErr E := by cases x <;> rfl

theorem mapErr_ofRes {ε δ α : Type} (E : ε → δ) (x : Res α) : (Out.ofRes x : Out ε α).mapErr E = .ofRes x := by cases x <;> rfl

section
variable (n : Numbering) (d : Dms)

theorem error_font (e : FontError) : n.error e.toSyntax = e.toSyntax := by cases e <;> rfl

theorem error_graphic (e : GraphicError) : n.error e.toSyntax = e.toSyntax := by cases e <;> rfl

theorem mapErr_font {α : Type} (x : Out FontError α) : (x.mapErr FontError.toSyntax).mapErr n.error = x.mapErr FontError.toSyntax := by
  cases x <;> simp [error_font]

theorem mapErr_graphic {α : Type} (x : Out GraphicError α) :
    (x.mapErr GraphicError.toSyntax).mapErr n.error = x.mapErr GraphicError.toSyntax := by
  cases x <;> simp [error_graphic]

/-- the state with new numbers -/
def renState (rs : RenderState) : RenderState :=
  { rs with fontNum := n.font rs.fontNum, fontVersionId := n.fontId d rs.fontNum rs.fontVersionId }

/-- the text with new numbers -/
def renSpan (s : Span) : Span := ⟨renState n d s.state, s.str⟩

theorem swap_eq (a b x : UInt16) : (Numbering.swap a b x = b) ↔ x = a := by
  unfold Numbering.swap
  split
  · simp [*]
  · split
    · subst x; simp_all [eq_comm]
    · simp [*]

theorem find_map {α : Type} {f : α → α} {p q : α → Bool} (h : ∀ a, q (f a) = p a) (l : List α) :
    (l.map f).find? q = (l.find? p).map f := by
  induction l with
  | nil => rfl
  | cons a l ih => simp only [List.map_cons, List.find?_cons, h, ih]; split <;> rfl

theorem fontTable_ren (k : UInt8) : FontTable.font (n.sign d).fontDefinition (n.font k) =
    (FontTable.font d.fontDefinition k).map n.ofFont := by
  unfold FontTable.font Numbering.sign
  refine find_map (fun f => ?_) _
  rw [Bool.eq_iff_iff, beq_iff_eq, beq_iff_eq]
  exact ⟨fun h => n.font_inj _ _ h, fun h => congrArg n.font h⟩

theorem graphicTable_ren (k : UInt8) : GraphicTable.graphic (n.sign d).graphicDefinition (n.graphic k) =
    (GraphicTable.graphic d.graphicDefinition k).map n.ofGraphic := by
  unfold GraphicTable.graphic Numbering.sign
  refine find_map (fun f => ?_) _
  rw [Bool.eq_iff_iff, beq_iff_eq, beq_iff_eq]
  exact ⟨fun h => n.graphic_inj _ _ h, fun h => congrArg n.graphic h⟩

theorem font_ren (rs : RenderState) : (renState n d rs).font (n.sign d).fontDefinition =
    (rs.font d.fontDefinition >>= fun f => Out.ok (n.ofFont f)).mapErr n.error := by
  unfold RenderState.font
  rw [show (renState n d rs).fontNum = n.font rs.fontNum from rfl, fontTable_ren]
  show (match Option.map n.ofFont _, n.fontId d rs.fontNum rs.fontVersionId with
    | some f, some vid => if vid = f.versionId then Out.ok f else .err SyntaxError.fontVersionID
    | some f, none => .ok f
    | none, _ => .err (SyntaxError.fontNotDefined (n.font rs.fontNum))) = _
  unfold Numbering.fontId
  rw [show (d.fontDefinition.find? fun f => f.number == rs.fontNum) = FontTable.font d.fontDefinition rs.fontNum from rfl]
  cases FontTable.font d.fontDefinition rs.fontNum with
  | none => rfl
  | some f =>
    cases rs.fontVersionId with
    | none => rfl
    | some vid =>
      simp only [Option.map_some, swap_eq]
      split <;> rfl

theorem charSpacingFonts_ren (s : Span) : (renSpan n d s).charSpacingFonts (n.sign d).fontDefinition =
    (s.charSpacingFonts d.fontDefinition).mapErr n.error := by
  unfold Span.charSpacingFonts
  rw [show (renSpan n d s).state = renState n d s.state from rfl, font_ren,
    show (renState n d s.state).charSpacing = s.state.charSpacing from rfl]
  cases s.state.charSpacing with
  | some c => rfl
  | none => cases s.state.font d.fontDefinition <;> rfl

theorem textWidthLoop_ren (f : Font) (cs w : Nat) (str : Str) : (n.ofFont f).textWidthLoop cs w str = f.textWidthLoop cs w str := by
  induction str generalizing w with
  | nil => rfl
  | cons c str ih => unfold Font.textWidthLoop; simp only [ih]; rfl

theorem renderTextLoop_ren (f : Font) (x y cs : Nat) (cf : Rgb) (p : Raster) (xx : Nat) (str : Str) :
    (n.ofFont f).renderTextLoop x y cs cf p xx str = f.renderTextLoop x y cs cf p xx str := by
  induction str generalizing p xx with
  | nil => rfl
  | cons c str ih => unfold Font.renderTextLoop; simp only [ih]; rfl

theorem width_ren (s : Span) : (renSpan n d s).width (n.sign d).fontDefinition = (s.width d.fontDefinition).mapErr n.error := by
  unfold Span.width
  rw [charSpacingFonts_ren, show (renSpan n d s).state = renState n d s.state from rfl, font_ren]
  cases s.state.font d.fontDefinition with
  | err e => rfl
  | panic p => rfl
  | ok f =>
    simp only [Out.ok_bind, Out.mapErr_ok, mapErr_bind, mapErr_font]
    congr 1
    funext cs
    unfold Font.textWidth
    simp only [textWidthLoop_ren]
    rfl

theorem height_ren (s : Span) : (renSpan n d s).height (n.sign d).fontDefinition = (s.height d.fontDefinition).mapErr n.error := by
  unfold Span.height
  rw [show (renSpan n d s).state = renState n d s.state from rfl, font_ren]
  cases s.state.font d.fontDefinition <;> rfl

theorem fontSpacing_ren (s : Span) :
    (renSpan n d s).fontSpacing (n.sign d).fontDefinition = (s.fontSpacing d.fontDefinition).mapErr n.error := by
  unfold Span.fontSpacing
  rw [show (renSpan n d s).state = renState n d s.state from rfl, font_ren]
  cases s.state.font d.fontDefinition <;> rfl

theorem between_ren (s p : Span) : (renSpan n d s).charSpacingBetween (renSpan n d p) (n.sign d).fontDefinition =
    (s.charSpacingBetween p d.fontDefinition).mapErr n.error := by
  unfold Span.charSpacingBetween
  rw [charSpacingFonts_ren, charSpacingFonts_ren,
    show (renSpan n d s).state.charSpacing = s.state.charSpacing from rfl]
  split
  · rfl
  · simp only [mapErr_bind]; rfl

theorem mapErr_ite {ε δ α : Type} (E : ε → δ) (c : Prop) [Decidable c] (x y : Out ε α) :
    (if c then x else y).mapErr E = if c then x.mapErr E else y.mapErr E := by split <;> rfl

theorem offsetHorizLoop_ren (rs : RenderState) (l : List Span) (p : Option Span) (b a : Nat) :
    offsetHorizLoop (n.sign d).fontDefinition (renState n d rs) (l.map (renSpan n d)) (p.map (renSpan n d)) b a =
      (offsetHorizLoop d.fontDefinition rs l p b a).mapErr n.error := by
  induction l generalizing p b a with
  | nil => rfl
  | cons s l ih =>
    have ih' := fun b a => ih (some s) b a
    simp only [Option.map_some] at ih'
    simp only [List.map_cons, offsetHorizLoop]
    cases p with
    | none =>
      simp only [Option.map_none, Out.pure_eq, Out.ok_bind, mapErr_bind, width_ren, mapErr_ite, mapErr_ofRes, ih']
      rfl
    | some p =>
      simp only [Option.map_some, mapErr_bind, width_ren, between_ren, mapErr_ite, mapErr_ofRes, ih', Out.pure_eq, Out.mapErr_ok]
      rfl

theorem textLines_ren (l : List Span) (ls : List TextLine) : textLines (n.sign d).fontDefinition (l.map (renSpan n d)) ls =
    (textLines d.fontDefinition l ls).mapErr n.error := by
  induction l generalizing ls with
  | nil => rfl
  | cons s l ih =>
    simp only [List.map_cons, textLines, mapErr_bind, height_ren, fontSpacing_ren, mapErr_ite, ih]
    rfl

theorem filter_ren (p q : Span → Bool) (h : ∀ s, p (renSpan n d s) = q s) (l : List Span) :
    (l.map (renSpan n d)).filter p = (l.filter q).map (renSpan n d) := by
  induction l with
  | nil => rfl
  | cons s l ih => simp only [List.map_cons, List.filter_cons, h, ih]; split <;> rfl

theorem offsetHoriz_ren (l : List Span) (s : Span) : offsetHoriz (n.sign d) (l.map (renSpan n d)) (renSpan n d s) =
    (offsetHoriz d l s).mapErr n.error := by
  unfold offsetHoriz
  have := offsetHorizLoop_ren n d s.state (l.filter fun x => s.state.matchesSpan x.state) none 0 0
  simp only [Option.map_none] at this
  simp only [mapErr_bind, ← this, mapErr_ofRes, mapErr_ite]
  rw [filter_ren n d _ (fun x => s.state.matchesSpan x.state) (fun x => rfl)]
  rfl

theorem offsetVert_ren (l : List Span) (s : Span) : offsetVert (n.sign d) (l.map (renSpan n d)) (renSpan n d s) =
    (offsetVert d l s).mapErr n.error := by
  unfold offsetVert
  simp only [mapErr_bind, ← textLines_ren, mapErr_ofRes, mapErr_ite]
  rw [filter_ren n d _ (fun x => s.state.matchesLine x.state) (fun x => rfl)]
  rfl

theorem spanX_ren (l : List Span) (s : Span) : spanX (n.sign d) (l.map (renSpan n d)) (renSpan n d s) =
    (spanX d l s).mapErr n.error := by
  unfold spanX spanXLeft spanXCenter spanXRight
  simp only [offsetHoriz_ren]
  rw [show (renSpan n d s).state.justLine = s.state.justLine from rfl]
  split <;> simp only [mapErr_bind, mapErr_ofRes, Out.mapErr_panic] <;> rfl

theorem spanY_ren (l : List Span) (s : Span) : spanY (n.sign d) (l.map (renSpan n d)) (renSpan n d s) =
    (spanY d l s).mapErr n.error := by
  unfold spanY baseline baselineTop baselineMiddle baselineBottom
  simp only [offsetVert_ren, height_ren]
  rw [show (renSpan n d s).state.justPage = s.state.justPage from rfl]
  split <;> simp only [mapErr_bind, mapErr_ofRes, Out.mapErr_panic] <;> rfl

theorem renderSpansLoop_ren (l l1 : List Span) (r : Raster) :
    renderSpansLoop (n.sign d) (l.map (renSpan n d)) (l1.map (renSpan n d)) r = (renderSpansLoop d l l1 r).mapErr n.error := by
  induction l1 generalizing r with
  | nil => rfl
  | cons s l1 ih =>
    simp only [List.map_cons, renderSpansLoop, mapErr_bind, spanX_ren, spanY_ren]
    congr 1; funext x; congr 1; funext y
    rw [show (renSpan n d s).state = renState n d s.state from rfl, font_ren]
    cases s.state.font d.fontDefinition with
    | err e => rfl
    | panic p => rfl
    | ok f =>
      simp only [Out.ok_bind, Out.mapErr_ok, ih]
      congr 1
      unfold Span.renderText Font.renderText
      rw [mapErr_font]
      simp only [renderTextLoop_ren]
      rfl

theorem checkJustLoop_ren (l : List Span) (jp jl k) : checkJustLoop jp jl k (l.map (renSpan n d)) = checkJustLoop jp jl k l := by
  induction l generalizing jp jl k with
  | nil => rfl
  | cons s l ih => simp only [List.map_cons, checkJustLoop, ih]; rfl

theorem checkJust_error (l : List Span) (e) (h : checkJustification l = .error e) : e = .tagConflict := by
  unfold checkJustification at h
  generalize JustificationPage.other = jp at h
  generalize JustificationLine.other = jl at h
  generalize 0 = k at h
  induction l generalizing jp jl k with
  | nil => cases h
  | cons s l ih =>
    unfold checkJustLoop at h
    dsimp only at h
    split at h
    · cases h; rfl
    · exact ih _ _ _ h

theorem renderTextSpans_ren (l : List Span) (r : Raster) : renderTextSpans (n.sign d) (l.map (renSpan n d)) r =
    (renderTextSpans d l r).mapErr n.error := by
  unfold renderTextSpans
  rw [show checkJustification (l.map (renSpan n d)) = checkJustification l from checkJustLoop_ren ..]
  cases h : checkJustification l with
  | error e => cases checkJust_error l e h; rfl
  | ok u => exact renderSpansLoop_ren ..

/-! ### graphics -/

theorem lookupGraphic_ren (k : UInt8) (id : Option UInt16) : lookupGraphic (n.sign d) (n.graphic k) (n.graphicId d k id) =
    (lookupGraphic d k id >>= fun g => Out.ok (n.ofGraphic g)).mapErr n.error := by
  unfold lookupGraphic Numbering.graphicId
  rw [graphicTable_ren, show (d.graphicDefinition.find? fun g => g.number == k) = GraphicTable.graphic d.graphicDefinition k from rfl]
  cases GraphicTable.graphic d.graphicDefinition k with
  | none => rfl
  | some g =>
    cases id with
    | none => rfl
    | some id =>
      simp only [Option.map_some, swap_eq]
      split <;> rfl

theorem renderLoop_ren (g : Graphic) (c : ColorCtx) (x y : Nat) (l : List (Nat × Nat)) (r : Raster) :
    (n.ofGraphic g).renderLoop c x y l r = g.renderLoop c x y l r := by
  induction l generalizing r with
  | nil => rfl
  | cons p l ih =>
    obtain ⟨i, j⟩ := p
    unfold Graphic.renderLoop
    simp only [ih]
    rfl

theorem renderGraphic_ren (g : Graphic) (r : Raster) (x y : Nat) (c : ColorCtx) :
    (n.ofGraphic g).renderGraphic r x y c = g.renderGraphic r x y c := by
  unfold Graphic.renderGraphic
  simp only [renderLoop_ren]
  rfl

theorem numbered_cases {s s' : Str} (h : n.Item d s s') :
    (∃ p, tryFrom s = .panic p ∧ tryFrom s' = .panic p) ∨
    (∃ e, tryFrom s = .ok (.error e) ∧ tryFrom s' = .ok (.error (n.error e))) ∨
    ∃ v, tryFrom s = .ok (.ok v) ∧ tryFrom s' = .ok (.ok (n.value d v)) := by
  unfold Numbering.Item at h
  cases hx : tryFrom s with
  | panic p => rw [hx] at h; exact .inl ⟨p, rfl, h⟩
  | ok x =>
    cases x with
    | error e => rw [hx] at h; exact .inr (.inl ⟨e, rfl, h⟩)
    | ok v => rw [hx] at h; exact .inr (.inr ⟨v, rfl, h⟩)

theorem setForeground_error {c : ColorCtx} {a : Option Color} {v : Value} {e} (h : c.setForeground a v = .error e) :
    n.error e = e := by
  unfold ColorCtx.setForeground at h
  split at h
  · split at h
    · cases h
    · cases h; rfl
  · cases h

theorem setBackground_error {c : ColorCtx} {a : Option Color} {v : Value} {e} (h : c.setBackground a v = .error e) :
    n.error e = e := by
  unfold ColorCtx.setBackground at h
  split at h
  · split at h
    · cases h
    · cases h; rfl
  · cases h

theorem mapErr_foreground (c : ColorCtx) (a : Option Color) (v : Value) :
    (ofExcept (c.setForeground a v)).mapErr n.error = ofExcept (c.setForeground a v) := by
  cases h : c.setForeground a v with
  | ok c => rfl
  | error e => simp only [ofExcept, Out.mapErr_err, setForeground_error n h]

theorem mapErr_background (c : ColorCtx) (a : Option Color) (v : Value) :
    (ofExcept (c.setBackground a v)).mapErr n.error = ofExcept (c.setBackground a v) := by
  cases h : c.setBackground a v with
  | ok c => rfl
  | error e => simp only [ofExcept, Out.mapErr_err, setBackground_error n h]

theorem mapErr_rect (r : Raster) (rect : Rectangle) (c : Rgb) (v : Value) :
    (renderRect r rect c v).mapErr n.error = renderRect r rect c v := by
  unfold renderRect
  simp only [mapErr_ite, mapErr_bind, mapErr_ofRes, Out.mapErr_panic]
  rfl

theorem renderGraphicsLoop_ren {ss ss' : List Str} (hs : All2 (n.Item d) ss ss') (c : ColorCtx) (r : Raster) :
    renderGraphicsLoop (n.sign d) ss' c r = (renderGraphicsLoop d ss c r).mapErr n.error := by
  induction hs generalizing c r with
  | nil => rfl
  | cons h1 _ ih =>
    rename_i s s' ss ss' _
    rcases numbered_cases n d h1 with ⟨p, e1, e2⟩ | ⟨e, e1, e2⟩ | ⟨v, e1, e2⟩
    · unfold renderGraphicsLoop; rw [e1, e2]; rfl
    · unfold renderGraphicsLoop; rw [e1, e2]; rfl
    · unfold renderGraphicsLoop
      rw [e1, e2]
      cases v with
      | graphic k pos =>
        have hl := lookupGraphic_ren n d k
        rcases pos with _ | ⟨x, y, id⟩
        · have := hl none
          rw [show n.graphicId d k none = none by unfold Numbering.graphicId; split <;> rfl] at this
          simp only [Numbering.value, Out.ofRes_ok, ofExcept, Out.ok_bind, this, mapErr_bind, Out.mapErr_ok]
          cases lookupGraphic d k none <;> simp [renderGraphic_ren, ih, mapErr_graphic]
        · have := hl id
          simp only [Numbering.value, Out.ofRes_ok, ofExcept, Out.ok_bind, this, mapErr_bind, Out.mapErr_ok]
          cases lookupGraphic d k id <;> simp [renderGraphic_ren, ih, mapErr_graphic]
      | font a =>
        rcases a with _ | ⟨k, id⟩ <;> exact ih c r
      | colorForeground a =>
        show (ofExcept (c.setForeground a _) >>= fun ctx => renderGraphicsLoop (n.sign d) ss' ctx r) =
          (ofExcept (c.setForeground a _) >>= fun ctx => renderGraphicsLoop d ss ctx r).mapErr n.error
        simp only [mapErr_bind, mapErr_foreground, ih]
        rfl
      | colorBackground a =>
        show (ofExcept (c.setBackground a _) >>= fun ctx => renderGraphicsLoop (n.sign d) ss' ctx r) =
          (ofExcept (c.setBackground a _) >>= fun ctx => renderGraphicsLoop d ss ctx r).mapErr n.error
        simp only [mapErr_bind, mapErr_background, ih]
        rfl
      | colorRectangle a b =>
        show (ofExcept (c.setForeground (some b) _) >>= fun x => renderRect r a x.foregroundRgb _ >>= fun r =>
            renderGraphicsLoop (n.sign d) ss' c r) =
          (ofExcept (c.setForeground (some b) _) >>= fun x => renderRect r a x.foregroundRgb _ >>= fun r =>
            renderGraphicsLoop d ss c r).mapErr n.error
        simp only [mapErr_bind, mapErr_foreground, mapErr_rect, ih]
        rfl
      | _ => first | rfl | exact ih c r

/-! ### text rectangles -/

/-- the loop variables with new numbers -/
def renRtr (st : Rtr) : Rtr := { st with rs := renState n d st.rs, spans := st.spans.map (renSpan n d) }

theorem updateTextRectangle_ren (full rect : Rectangle) : updateTextRectangle (n.sign d) full rect = updateTextRectangle d full rect := rfl

/-- how a round ends, with new numbers -/
def renCtl : Ctl → Ctl
  | .fail e => .fail (n.error e)
  | c => c

theorem rtrStep_ren (ds : RenderState) (po : Bool) (st : Rtr) (v : Value) :
    rtrStep (n.sign d) (renState n d ds) po (renRtr n d st) (n.value d v) =
      (rtrStep d ds po st v).map' fun p => (renCtl n p.1, renRtr n d p.2) := by
  cases v with
  | colorForeground a =>
    simp only [Numbering.value, rtrStep]
    rw [show (renRtr n d st).rs.colorCtx = st.rs.colorCtx from rfl]
    cases h : st.rs.colorCtx.setForeground a (.colorForeground a) with
    | ok c => rfl
    | error e => simp only [Res.map', renCtl, setForeground_error n h]
  | font a => rcases a with _ | ⟨k, id⟩ <;> rfl
  | graphic k pos => rcases pos with _ | ⟨x, y, id⟩ <;> rfl
  | justificationLine j =>
    rcases j with _ | j
    · rfl
    · cases j <;> rfl
  | justificationPage j =>
    simp only [Numbering.value, rtrStep]
    rcases j with _ | j
    · dsimp only
      rw [show (renRtr n d st).rs.justPage = st.rs.justPage from rfl, show (renState n d ds).justPage = ds.justPage from rfl]
      split <;> rfl
    · cases j
      case other => rfl
      all_goals
        dsimp only
        rw [show (renRtr n d st).rs.justPage = st.rs.justPage from rfl, show (renState n d ds).justPage = ds.justPage from rfl]
        split <;> rfl
  | newLine ls =>
    simp only [Numbering.value, rtrStep]
    rw [show badLineSpacing (n.sign d) ls = badLineSpacing d ls from rfl]
    split
    · rfl
    · rw [show (renRtr n d st).rs.lineNumber = st.rs.lineNumber from rfl, show (renRtr n d st).lineBlank = st.lineBlank from rfl]
      cases chk8 (st.rs.lineNumber + 1) with
      | panic p => rfl
      | ok k =>
        simp only [Res.ok_bind, Res.pure_eq, Res.map', renCtl]
        congr 2
        unfold renRtr
        dsimp only
        split <;> simp [renSpan, renState]
  | spacingCharacter sc =>
    simp only [Numbering.value, rtrStep]
    rw [show (n.sign d).charWidth = d.charWidth from rfl]
    split <;> rfl
  | textRectangle r =>
    simp only [Numbering.value, rtrStep]
    rw [updateTextRectangle_ren, show (renState n d ds).textRectangle = ds.textRectangle from rfl]
    cases updateTextRectangle d ds.textRectangle r with
    | panic p => rfl
    | ok x => cases x <;> rfl
  | text t =>
    simp only [Numbering.value, rtrStep]
    rw [show (renRtr n d st).rs.spanNumber = st.rs.spanNumber from rfl]
    cases chk8 (st.rs.spanNumber + 1) with
    | panic p => rfl
    | ok k => simp [Res.map', renCtl, renRtr, renState, renSpan]
  | hexadecimalCharacter hc =>
    simp only [Numbering.value, rtrStep]
    rw [show (renRtr n d st).rs.spanNumber = st.rs.spanNumber from rfl]
    cases charFromU32 hc.toNat with
    | none => rfl
    | some c =>
      dsimp only
      cases chk8 (st.rs.spanNumber + 1) with
      | panic p => rfl
      | ok k => simp [Res.map', renCtl, renRtr, renState, renSpan]
  | _ => rfl

/-- results of `rtrLoop` -/
def RenL (p q : Except SyntaxError Unit × Rtr × List Str) : Prop :=
  Except.RelE (fun e e' => e' = n.error e) (fun _ _ => True) p.1 q.1 ∧ q.2.1 = renRtr n d p.2.1 ∧ All2 (n.Item d) p.2.2 q.2.2

theorem rtrLoop_ren (ds : RenderState) (po : Bool) {ss ss' : List Str} (hs : All2 (n.Item d) ss ss') (st : Rtr) :
    Res.Rel (RenL n d) (rtrLoop d ds po ss st) (rtrLoop (n.sign d) (renState n d ds) po ss' (renRtr n d st)) := by
  induction hs generalizing st with
  | nil => exact ⟨trivial, rfl, .nil⟩
  | cons h1 htl ih =>
    unfold rtrLoop
    rcases numbered_cases n d h1 with ⟨p, e1, e2⟩ | ⟨e, e1, e2⟩ | ⟨v, e1, e2⟩ <;> rw [e1, e2]
    · exact rfl
    · exact ⟨rfl, rfl, htl⟩
    · dsimp only
      rw [rtrStep_ren]
      cases hx : rtrStep d ds po st v with
      | panic p => exact rfl
      | ok p =>
        obtain ⟨c, st1⟩ := p
        cases c with
        | cont => exact ih st1
        | brk => exact ⟨trivial, rfl, htl⟩
        | fail e => exact ⟨rfl, rfl, htl⟩

/-- the iterator with new numbers -/
structure RenP (pg pg' : Pages) : Prop where
  dflt : pg'.defaultState = renState n d pg.defaultState
  cur : pg'.renderState = renState n d pg.renderState
  pageState : pg'.pageState = pg.pageState
  values : All2 (n.Item d) pg.values pg'.values
  spans : pg'.spans = pg.spans.map (renSpan n d)

/-- results with a state of the iterator -/
def RenE {α : Type} (p q : Except SyntaxError α × Pages) : Prop :=
  Except.RelE (n.SameError d) (fun a b => b = a) p.1 q.1 ∧ RenP n d p.2 q.2

theorem renderTextRectangle_ren {pg pg' : Pages} (hp : RenP n d pg pg') (r : Raster) :
    Res.Rel (RenE n d) (renderTextRectangle d pg r) (renderTextRectangle (n.sign d) pg' r) := by
  unfold renderTextRectangle
  rw [hp.dflt, hp.cur]
  refine Res.Rel.bind (rtrLoop_ren n d pg.defaultState _ hp.values _) fun p q hpq => ?_
  obtain ⟨e, st, vs⟩ := p
  obtain ⟨e', st', vs'⟩ := q
  obtain ⟨k1, k2, k3⟩ := hpq
  dsimp only at k1 k2 k3
  subst k2
  cases e <;> cases e' <;> simp only [Except.RelE] at k1
  · subst k1
    exact ⟨.number _, rfl, rfl, rfl, k3, rfl⟩
  · dsimp only
    rw [show (renRtr n d st).spans = st.spans.map (renSpan n d) from rfl, renderTextSpans_ren]
    cases renderTextSpans d st.spans r with
    | panic p => exact rfl
    | err e => exact ⟨.number _, rfl, rfl, rfl, k3, rfl⟩
    | ok r1 => exact ⟨rfl, rfl, rfl, rfl, k3, rfl⟩

theorem onPageLoop_ren (fuel k : Nat) {pg pg' : Pages} (hp : RenP n d pg pg') (r : Raster) :
    Res.Rel (RenE n d) (onPageLoop d fuel k pg r) (onPageLoop (n.sign d) fuel k pg' r) := by
  induction fuel generalizing k pg pg' r with
  | zero => exact ⟨rfl, hp⟩
  | succ fuel ih =>
    unfold onPageLoop
    rw [hp.pageState, hp.cur, show (renState n d pg.renderState).colorCtx = pg.renderState.colorCtx from rfl,
      renderGraphicsLoop_ren n d hp.values]
    split
    · cases renderGraphicsLoop d pg.values pg.renderState.colorCtx r with
      | panic p => exact rfl
      | err e => exact ⟨.number _, hp⟩
      | ok r1 =>
        refine Res.Rel.bind (renderTextRectangle_ren n d hp r1) fun p q hpq => ?_
        obtain ⟨e, p⟩ := p
        obtain ⟨e', q⟩ := q
        obtain ⟨k1, k2⟩ := hpq
        cases e <;> cases e' <;> simp only [Except.RelE] at k1
        · exact ⟨k1, k2⟩
        · subst k1
          dsimp only
          split
          · exact ⟨.number _, k2⟩
          · exact ih _ k2 _
    · exact ⟨rfl, hp⟩

theorem tag_ren (v : Value) : (n.value d v).tag = v.tag := by
  cases v with
  | font a => rcases a with _ | ⟨k, id⟩ <;> rfl
  | graphic k pos => rcases pos with _ | ⟨x, y, id⟩ <;> rfl
  | _ => rfl

theorem checkUnsupported_ren {ss ss' : List Str} (hs : All2 (n.Item d) ss ss') :
    Out.RelE (n.SameError d) (fun _ _ => True) (checkUnsupported d ss) (checkUnsupported (n.sign d) ss') := by
  induction hs with
  | nil => exact trivial
  | cons h1 _ ih =>
    rcases numbered_cases n d h1 with ⟨p, e1, e2⟩ | ⟨e, e1, e2⟩ | ⟨v, e1, e2⟩
    · unfold checkUnsupported; rw [e1, e2]; exact rfl
    · unfold checkUnsupported; rw [e1, e2]; exact .number _
    · rw [checkUnsupported_value e1, checkUnsupported_value e2, tag_ren]
      rw [show (n.sign d).multiCfg.supportedMultiTags = d.multiCfg.supportedMultiTags from rfl]
      split
      · split
        · exact .tag v
        · split
          · exact trivial
          · exact ih
      · exact ih

/-- results of `update_page_state` -/
def RenU (p q : Except SyntaxError Unit × RenderState) : Prop :=
  Except.RelE (fun e e' => e' = n.error e) (fun _ _ => True) p.1 q.1 ∧ q.2 = renState n d p.2

theorem updatePageStateLoop_ren (ds : RenderState) {ss ss' : List Str} (hs : All2 (n.Item d) ss ss') (rs : RenderState) :
    Res.Rel (RenU n d) (updatePageStateLoop ds ss rs) (updatePageStateLoop (renState n d ds) ss' (renState n d rs)) := by
  induction hs generalizing rs with
  | nil => exact ⟨trivial, rfl⟩
  | cons h1 _ ih =>
    rename_i s s' ss ss' _
    rcases numbered_cases n d h1 with ⟨p, e1, e2⟩ | ⟨e, e1, e2⟩ | ⟨v, e1, e2⟩
    · unfold updatePageStateLoop; rw [e1, e2]; exact rfl
    · unfold updatePageStateLoop; rw [e1, e2]; exact ⟨rfl, rfl⟩
    · rw [updatePageStateLoop_value e1, updatePageStateLoop_value e2]
      have bgStep : ∀ a v, Res.Rel (RenU n d)
            (match rs.colorCtx.setBackground a v with
              | .ok ctx => updatePageStateLoop ds ss { rs with colorCtx := ctx }
              | .error e => .ok (.error e, rs))
            (match (renState n d rs).colorCtx.setBackground a v with
              | .ok ctx => updatePageStateLoop (renState n d ds) ss' { renState n d rs with colorCtx := ctx }
              | .error e => .ok (.error e, renState n d rs)) := by
        intro a v
        rw [show (renState n d rs).colorCtx = rs.colorCtx from rfl]
        cases hx : rs.colorCtx.setBackground a v with
        | ok c => exact ih { rs with colorCtx := c }
        | error e => exact ⟨(setBackground_error n hx).symm, rfl⟩
      cases v
      case colorBackground a => exact bgStep a _
      case pageBackground a => exact bgStep a _
      case newPage => exact ⟨trivial, rfl⟩
      case pageTime on off => exact ih { rs with pageOnTimeDs := on.getD ds.pageOnTimeDs, pageOffTimeDs := off.getD ds.pageOffTimeDs }
      case font a => rcases a with _ | ⟨k, id⟩ <;> exact ih rs
      case graphic k pos => rcases pos with _ | ⟨x, y, id⟩ <;> exact ih rs
      all_goals exact ih rs

theorem renderOnPage_ren {pg pg' : Pages} (hp : RenP n d pg pg') :
    Res.Rel (RenE n d) (renderOnPage d pg) (renderOnPage (n.sign d) pg') := by
  unfold renderOnPage
  have hc := checkUnsupported_ren n d hp.values
  cases h1 : checkUnsupported d pg.values <;> cases h2 : checkUnsupported (n.sign d) pg'.values <;> rw [h1, h2] at hc <;>
    simp only [Out.RelE] at hc
  · dsimp only
    rw [hp.dflt, hp.cur]
    refine Res.Rel.bind (updatePageStateLoop_ren n d pg.defaultState hp.values _) fun p q hpq => ?_
    obtain ⟨e, rs⟩ := p
    obtain ⟨e', rs'⟩ := q
    obtain ⟨k1, k2⟩ := hpq
    dsimp only at k1 k2
    subst k2
    cases e <;> cases e' <;> simp only [Except.RelE] at k1
    · subst k1
      exact ⟨.number _, rfl, rfl, hp.pageState, hp.values, hp.spans⟩
    · dsimp only
      rw [show buildRaster (renState n d rs) = buildRaster rs from rfl]
      refine Res.Rel.bind (onPageLoop_ren n d _ _ (pg := ⟨pg.defaultState, rs, .on false, pg.values, pg.spans⟩)
        (pg' := ⟨_, renState n d rs, .on false, pg'.values, pg'.spans⟩)
        ⟨rfl, rfl, rfl, hp.values, hp.spans⟩ _) fun p q hpq => ?_
      obtain ⟨e, p⟩ := p
      obtain ⟨e', q⟩ := q
      obtain ⟨k1, k2⟩ := hpq
      cases e <;> cases e' <;> simp only [Except.RelE] at k1
      · exact ⟨k1, k2⟩
      · subst k1
        refine ⟨?_, k2⟩
        show (⟨_, q.renderState.pageOnTimeDs.toNat⟩ : Page) = _
        rw [k2.cur]; rfl
  · exact ⟨hc, hp⟩
  · exact hc

/-- results of `next` -/
def RenN (p q : Option (Except SyntaxError Page) × Pages) : Prop :=
  Option.Rel (n.SameResult d) p.1 q.1 ∧ RenP n d p.2 q.2

theorem next_ren {pg pg' : Pages} (hp : RenP n d pg pg') :
    Res.Rel (RenN n d) (Pages.next d pg) (Pages.next (n.sign d) pg') := by
  unfold Pages.next
  rw [hp.pageState]
  split
  · refine Res.Rel.bind (renderOnPage_ren n d hp) fun p q hpq => ?_
    obtain ⟨e, p⟩ := p
    obtain ⟨e', q⟩ := q
    refine ⟨?_, hpq.2⟩
    have := hpq.1
    cases e <;> cases e' <;> exact this
  · dsimp only [renderOffPage]
    refine ⟨?_, hp.dflt, hp.cur, ?_, hp.values, hp.spans⟩
    · show (⟨buildRaster pg'.renderState, pg'.renderState.pageOffTimeDs.toNat⟩ : Page) = _
      rw [hp.cur]; rfl
    · show pg'.pageState.nextState = _
      rw [hp.pageState]
  · exact ⟨trivial, hp⟩

theorem run_ren (k : Nat) {pg pg' : Pages} (hp : RenP n d pg pg') :
    Res.Rel (fun p q => All2 (n.SameResult d) p.1 q.1) (Pages.run d k pg) (Pages.run (n.sign d) k pg') := by
  induction k generalizing pg pg' with
  | zero => exact All2.nil
  | succ k ih =>
    unfold Pages.run
    refine Res.Rel.bind (next_ren n d hp) fun p q hpq => ?_
    obtain ⟨x, p⟩ := p
    obtain ⟨x', q⟩ := q
    obtain ⟨k1, k2⟩ := hpq
    cases x <;> cases x' <;> simp only [Option.Rel] at k1
    · exact All2.nil
    · dsimp only
      refine Res.Rel.bind (ih k2) fun a b hab => ?_
      exact All2.cons k1 hab

theorem fontId_none (k : UInt8) : n.fontId d k none = none := by
  unfold Numbering.fontId
  split <;> rfl

theorem new_ren {ms ms' : Str} (hs : All2 (n.Item d) (slices ms) (slices ms')) :
    RenP n d (Pages.new d ms) (Pages.new (n.sign d) ms') := by
  have : RenderState.new (n.sign d) = renState n d (.new d) := by
    unfold renState
    rw [show (RenderState.new d).fontVersionId = none from rfl, fontId_none]
    rfl
  exact ⟨this, this, rfl, hs, rfl⟩

end
end Ntcip
