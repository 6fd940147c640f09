import Verif.Spec.First
import Verif.Spec.Drawn
import Verif.Lemmas.Safe
import Verif.Props.Panic
/-
Specification of the end of a page: an error or a panic, whichever check gives one first.
-/
namespace Ntcip.Spec

/-- How a page can end, other than being shown -/
inductive Stop where
  | error (e : SyntaxError)
  | panic

/-- A check that can panic -/
abbrev StopCheck := Stop → Prop

/-- a check that does not panic -/
def errors (c : Check) : StopCheck
  | .error e => c e
  | .panic => False

/-- a check that gives no error -/
def onlyPanics (p : Prop) : StopCheck
  | .error _ => False
  | .panic => p

/-- a check of which the panic comes before its errors -/
def panicsOr (p : Prop) (c : Check) : StopCheck
  | .error e => ¬ p ∧ c e
  | .panic => p

/-- the parser panics on the item (C03) -/
def PanicItem (s : Str) : Prop := ∃ b, s = '[' :: (b ++ [']']) ∧ PanicTag b

/-- The first item of a page on which the parser panics, that is not valid, or has a tag the sign does not support -/
inductive ItemStop (d : Dms) : List Str → Stop → Prop
  | panic {s ss} : PanicItem s → ItemStop d (s :: ss) .panic
  | bad {s ss e} : ¬ PanicItem s → WrongItem s e → ItemStop d (s :: ss) (.error e)
  | tag {s ss v t} : Denotes s v → v.tag = some t → d.multiCfg.supportedMultiTags t = false →
      ItemStop d (s :: ss) (.error (.unsupportedTag v.display))
  | later {s ss v z} : Denotes s v → v ≠ .newPage →
      (∀ t, v.tag = some t → d.multiCfg.supportedMultiTags t = true) → ItemStop d ss z → ItemStop d (s :: ss) z

/-- a tag that is not implemented, or a color rectangle, in a color of the sign, with an edge of more than 16 bits -/
def PaintPanic (d : Dms) (v : Value) : Prop := unimplemented v = true ∨
  ∃ r c, v = .colorRectangle r c ∧ ColorOk d.multiCfg.colorScheme v ∧ ¬ RectFits r

/-- a color, color rectangle or graphic -/
def paintStop (d : Dms) (v : Value) : StopCheck := panicsOr (PaintPanic d v) (PaintFault d v)

/-- the next text rectangle: its edges must be of 16 bits -/
def nextStop (d : Dms) (r : Rectangle) : StopCheck := panicsOr (¬ RectFits r) (LayoutFault d (.textRectangle r))

/-- text in the vertical middle: its lower edge, that of a character cell, is nearer to the top of the sign than the
height of its font -/
def AboveSign (d : Dms) (rect : Rectangle) (spans : List Span) (s : Span) : Prop := s.state.justPage = .middle ∧
  ∃ f, FontOf d.fontDefinition s f ∧
    cellEdge (signCellHeight d) (linesTop rect .middle (totalHeight d spans s) +
      countedHeight d spans s s.state.lineNumber) < f.height.toNat

/-- the checks of one text -/
def spanStops (d : Dms) (rect : Rectangle) (spans : List Span) (s : Span) : List StopCheck :=
  (spanChecks d rect spans s).map errors ++ [onlyPanics (AboveSign d rect spans s)]

/-- the checks of all texts of a rectangle -/
def textStops (d : Dms) (rect : Rectangle) (spans : List Span) : List StopCheck :=
  errors (ConflictFault spans) :: spans.flatMap (spanStops d rect spans)

/-- The checks of one text rectangle, see `rectChecks` -/
def rectStops (d : Dms) (t : TextAttr) (sp : Option UInt8) (rect : Rectangle) (ws : List Value)
    (next : Option Rectangle) : List StopCheck :=
  ws.map (paintStop d) ++ (ws.map (fun v => errors (LayoutFault d v)) ++ (next.toList.map (nextStop d) ++
    textStops d rect (layoutOf d t sp rect ws)))

/-- the checks of all text rectangles of a page, the first one is number `n` -/
def rectsStops (d : Dms) : Nat → TextAttr → Option UInt8 → Rectangle → List Value → List (Rectangle × List Value) →
    List StopCheck
  | n, t, sp, rect, ws, [] => rectStops d t sp rect ws none ++ [errors (CountFault n)]
  | n, t, sp, rect, ws, (r, us) :: more => rectStops d t sp rect ws (some r) ++ errors (CountFault n) ::
      rectsStops d (n + 1) (ws.foldl (TextAttr.apply (signAttr d)) t) (ws.foldl spacingAfter sp) (opened d r) us more

/-- the checks of a page with valid, supported items: background colors, then the text rectangles -/
def pageStops (d : Dms) (t : TextAttr) (vs : List Value) : List StopCheck :=
  vs.map (fun v => errors (BackgroundFault d v)) ++
    rectsStops d 1 t none (signRect d) (sections vs).1 (sections vs).2

/-- The first error or panic of the page that begins at `ss`; `t` are the text attributes before the page -/
def PageStop (d : Dms) (t : TextAttr) (ss : List Str) (z : Stop) : Prop :=
  ItemStop d ss z ∨ ∃ vs rest b, TakePage ss vs rest b ∧
    (∀ v ∈ vs, ∀ t, v.tag = some t → d.multiCfg.supportedMultiTags t = true) ∧
    (b = true → d.multiCfg.supportedMultiTags .np = true) ∧ First (pageStops d t vs) z

/-- Some page has an error or panics; `z` is the first one. -/
inductive FirstStop (d : Dms) : TextAttr → List Str → Stop → Prop
  | here {t ss z} : PageStop d t ss z → FirstStop d t ss z
  | later {t ss vs rest z} : (∀ z, ¬ PageStop d t ss z) → TakePage ss vs rest true →
      FirstStop d (vs.foldl (TextAttr.apply (signAttr d)) t) rest z → FirstStop d t ss z

end Ntcip.Spec
