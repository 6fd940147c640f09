import Verif.Spec.Fault
import Verif.Spec.Counted
/-
Specification of the first fault of a page: the checks of the renderer, in their order.
-/
namespace Ntcip.Spec

/-- A check of a message: the error it gives, if any -/
abbrev Check := SyntaxError → Prop

/-- The error (or another end) is that of the first check that gives one -/
inductive First {ε : Type} : List (ε → Prop) → ε → Prop
  | here {c cs e} : c e → First (c :: cs) e
  | later {c cs e} : (∀ e, ¬ c e) → First cs e → First (c :: cs) e

/-- The font of a text is not defined, or has another version -/
inductive SpanFontFault (d : Dms) (s : Span) : Check
  | missing : (∀ f ∈ d.fontDefinition, f.number ≠ s.state.fontNum) →
      SpanFontFault d s (.fontNotDefined s.state.fontNum)
  | version {f v} : FontTable.font d.fontDefinition s.state.fontNum = some f → s.state.fontVersionId = some v →
      v ≠ f.versionId → SpanFontFault d s .fontVersionID

/-- The font of a text is wrong, or has not all of its characters: the error tells of the first one -/
inductive GlyphFault (d : Dms) (s : Span) : Check
  | font {e} : SpanFontFault d s e → GlyphFault d s e
  | character {f pre c post} : FontOf d.fontDefinition s f → s.str = pre ++ c :: post →
      (∀ a ∈ pre, ∃ e ∈ f.characters, e.number.toNat = a.toNat) → (∀ e ∈ f.characters, e.number.toNat ≠ c.toNat) →
      GlyphFault d s (.characterNotDefined c)

/-- a text with a justification that comes before that of the text before it -/
def ConflictFault (spans : List Span) : Check := fun e => e = .tagConflict ∧
  ∃ (i : Nat) (a b : Span), spans[i]? = some a ∧ spans[i + 1]? = some b ∧ Backwards a b

/-- the texts on the line of `s` are wider than the rectangle -/
def WideFault (d : Dms) (rect : Rectangle) (spans : List Span) (s : Span) : Check := fun e => e = .textTooBig ∧
  ∃ n, LineWidth d.fontDefinition none (sameLine spans s) n ∧ rect.width.toNat < n

/-- the lines with the page justification of `s`, as counted, are higher than the rectangle -/
def HighFault (d : Dms) (rect : Rectangle) (spans : List Span) (s : Span) : Check := fun e => e = .textTooBig ∧
  rect.height.toNat < totalHeight d spans s

/-- the checks of one text: its line, then the lines above and below -/
def spanChecks (d : Dms) (rect : Rectangle) (spans : List Span) (s : Span) : List Check :=
  (sameLine spans s).map (GlyphFault d) ++ WideFault d rect spans s ::
    ((samePage spans s).map (SpanFontFault d) ++ [HighFault d rect spans s])

/-- the checks of all texts of a rectangle -/
def textChecks (d : Dms) (rect : Rectangle) (spans : List Span) : List Check :=
  ConflictFault spans :: spans.flatMap (spanChecks d rect spans)

/-- a background color that is not of the color scheme of the sign -/
inductive BackgroundFault (d : Dms) : Value → Check
  | cb {c} : ¬ ColorOk d.multiCfg.colorScheme (.colorBackground c) →
      BackgroundFault d (.colorBackground c) (.unsupportedTagValue (Value.colorBackground c).display)
  | pb {c} : ¬ ColorOk d.multiCfg.colorScheme (.pageBackground c) →
      BackgroundFault d (.pageBackground c) (.unsupportedTagValue (Value.pageBackground c).display)

/-- colors and color rectangles -/
def isPaint : Value → Bool
  | .colorBackground _ => true
  | .colorForeground _ => true
  | .colorRectangle _ _ => true
  | _ => false

/-- a color, color rectangle or graphic the sign can not show -/
inductive PaintFault (d : Dms) : Value → Check
  | value {v} : isPaint v = true → ¬ ValueOk d v → PaintFault d v (.unsupportedTagValue v.display)
  | missing {n pos} : (∀ g ∈ d.graphicDefinition, g.number ≠ n) → PaintFault d (.graphic n pos) (.graphicNotDefined n)
  | version {n x y id g} : GraphicTable.graphic d.graphicDefinition n = some g → id ≠ g.versionId →
      PaintFault d (.graphic n (some (x, y, some id))) .graphicID
  | big {n pos g} : GraphicTable.graphic d.graphicDefinition n = some g →
      (∀ x y id, pos = some (x, y, some id) → id = g.versionId) →
      d.vmsCfg.signWidthPixels.toNat < (corner pos).1 + g.width.toNat ∨
        d.vmsCfg.signHeightPixels.toNat < (corner pos).2 + g.height.toNat →
      PaintFault d (.graphic n pos) (.other "Graphic too big")

/-- tags for the layout of text (and its color, which has been checked before) -/
def isLayout : Value → Bool
  | .colorForeground _ => true
  | .justificationLine _ => true
  | .justificationPage _ => true
  | .newLine _ => true
  | .spacingCharacter _ => true
  | .hexadecimalCharacter _ => true
  | .textRectangle _ => true
  | _ => false

/-- a tag for the layout of text the sign can not show -/
def LayoutFault (d : Dms) (v : Value) : Check := fun e =>
  isLayout v = true ∧ ¬ ValueOk d v ∧ e = .unsupportedTagValue v.display

/-- The checks of one text rectangle: colors and graphics, tags (including the `[tr]` tag of the next one), texts -/
def rectChecks (d : Dms) (t : TextAttr) (sp : Option UInt8) (rect : Rectangle) (ws : List Value)
    (next : Option Rectangle) : List Check :=
  ws.map (PaintFault d) ++ (ws.map (LayoutFault d) ++ (next.toList.map (fun r => LayoutFault d (.textRectangle r)) ++
    textChecks d rect (layoutOf d t sp rect ws)))

/-- there must not be more than 50 text rectangles -/
def CountFault (n : Nat) : Check := fun e => 50 < n ∧ e = .other "Too many text rectangles"

/-- the checks of all text rectangles of a page, the first one is number `n` -/
def rectsChecks (d : Dms) : Nat → TextAttr → Option UInt8 → Rectangle → List Value → List (Rectangle × List Value) →
    List Check
  | n, t, sp, rect, ws, [] => rectChecks d t sp rect ws none ++ [CountFault n]
  | n, t, sp, rect, ws, (r, us) :: more => rectChecks d t sp rect ws (some r) ++ CountFault n ::
      rectsChecks d (n + 1) (ws.foldl (TextAttr.apply (signAttr d)) t) (ws.foldl spacingAfter sp) (opened d r) us more

/-- the checks of a page with valid, supported items: background colors, then the text rectangles -/
def pageChecks (d : Dms) (t : TextAttr) (vs : List Value) : List Check :=
  vs.map (BackgroundFault d) ++ rectsChecks d 1 t none (signRect d) (sections vs).1 (sections vs).2

/-- The first fault of the page that begins at `ss`: a wrong item or a tag the sign does not support, otherwise the
first check that gives an error; `t` are the text attributes before the page -/
def FirstFault (d : Dms) (t : TextAttr) (ss : List Str) (e : SyntaxError) : Prop :=
  ItemFault d ss e ∨ ∃ vs rest b, TakePage ss vs rest b ∧
    (∀ v ∈ vs, ∀ t, v.tag = some t → d.multiCfg.supportedMultiTags t = true) ∧
    (b = true → d.multiCfg.supportedMultiTags .np = true) ∧ First (pageChecks d t vs) e

end Ntcip.Spec
