import Verif.Spec.Compose
import Verif.Lemmas.PageColor
import Verif.Lemmas.Rects
import Verif.Lemmas.Safe
/-
Specification of the pages that are accepted by the renderer.
-/
namespace Ntcip.Spec

/-- What is needed of the size of the sign and of its graphics, for drawing graphics and rectangles -/
structure DrawOk (d : Dms) : Prop where
  width : d.vmsCfg.signWidthPixels.toNat < 65535
  height : d.vmsCfg.signHeightPixels.toNat < 65535
  size : ¬ (d.vmsCfg.signWidthPixels.toNat = 0 ∧ d.vmsCfg.signHeightPixels.toNat = 0)
  graphics : GraphicsOk d.vmsCfg.signWidthPixels.toNat d.vmsCfg.signHeightPixels.toNat d.graphicDefinition

/-- What is needed of the sign: fonts and graphics are as `validate` demands, defaults are a font and justifications
that exist -/
structure AcceptOk (d : Dms) : Prop extends DrawOk d where
  font : 1 ≤ d.multiCfg.defaultFont.toNat
  justPage : d.multiCfg.defaultJustificationPage ≠ .other
  justLine : d.multiCfg.defaultJustificationLine ≠ .other ∧ d.multiCfg.defaultJustificationLine ≠ .full
  fonts : FontsOk d.fontDefinition

/-- the heights of all fonts are multiples of the height of the character cells -/
def CellHeights (d : Dms) : Prop :=
  d.vmsCfg.charHeightPixels = 0 ∨ ∀ f ∈ d.fontDefinition, f.height.toNat % (signCellHeight d) = 0

/-- a span that draws the piece in the rectangle -/
def spanOf (d : Dms) (rect : Rectangle) (p : Piece) : Span :=
  ⟨{ RenderState.new d with
      fontNum := p.attr.fontNum, fontVersionId := p.attr.fontVersionId, justPage := p.attr.justPage,
      justLine := p.attr.justLine, charSpacing := p.attr.charSpacing,
      colorCtx := { signCtx d with fgCurrent := p.attr.foreground },
      lineSpacing := p.spacing, lineNumber := p.line, textRectangle := rect }, p.str⟩

/-- Can the sign show the value?  Colors must be of its scheme, rectangles and graphics inside of the sign, text
rectangles at the edges of character cells, spacing is for signs without character cells. -/
def ValueOk (d : Dms) (v : Value) : Prop :=
  ColorOk d.multiCfg.colorScheme v ∧ match v with
  | .colorRectangle r _ => InsideRect d.vmsCfg.signWidthPixels.toNat d.vmsCfg.signHeightPixels.toNat r
  | .graphic n pos => ∃ g, GraphicOf d n pos g ∧ (corner pos).1 + g.width.toNat ≤ d.vmsCfg.signWidthPixels.toNat ∧
      (corner pos).2 + g.height.toNat ≤ d.vmsCfg.signHeightPixels.toNat
  | .justificationLine (some j) => j ≠ .other ∧ j ≠ .full
  | .justificationPage (some j) => j ≠ .other
  | .newLine (some n) => d.vmsCfg.charHeightPixels = 0 ∨ n = 0
  | .spacingCharacter n => d.vmsCfg.charWidthPixels = 0 ∨ n = 0
  | .hexadecimalCharacter c => c.toNat < 0xD800 ∨ 0xE000 ≤ c.toNat
  | .textRectangle r => TextRect d d.vmsCfg.signWidthPixels.toNat d.vmsCfg.signHeightPixels.toNat r
  | v => unimplemented v = false

/-- Can the texts be drawn in the rectangle?  Fonts and characters must be defined, and the text of each line and
the lines together must not be larger than the rectangle. -/
def TextsFit (d : Dms) (rect : Rectangle) (spans : List Span) : Prop :=
  ∀ s ∈ spans, (∃ f es, FontOf d.fontDefinition s f ∧ Defined f s.str es) ∧
    FitsWidth d spans rect.width.toNat s ∧ FitsHeight d spans rect.height.toNat s

/-- the texts of the values, as spans -/
def layoutOf (d : Dms) (t : TextAttr) (sp : Option UInt8) (rect : Rectangle) (vs : List Value) : List Span :=
  (pieces (signAttr d) t sp 0 true vs).map (spanOf d rect)

/-- a property of all text rectangles of a page -/
inductive AllSections (d : Dms) (P : TextAttr → Option UInt8 → Rectangle → List Value → Prop) :
    TextAttr → Option UInt8 → Rectangle → List Value → List (Rectangle × List Value) → Prop
  | last {t sp rect vs} : P t sp rect vs → AllSections d P t sp rect vs []
  | next {t sp rect vs r ws rest} : P t sp rect vs →
      AllSections d P (vs.foldl (TextAttr.apply (signAttr d)) t) (vs.foldl spacingAfter sp)
        (opened d r) ws rest →
      AllSections d P t sp rect vs ((r, ws) :: rest)

/-- The values of each text rectangle are in order, and text in the vertical middle has fonts with a height that
is a multiple of the height of the character cells; `t` are the attributes of text before the page -/
def TidyPage (d : Dms) (t : TextAttr) (vs : List Value) : Prop :=
  AllSections d (fun t sp rect ws => Tidy (signAttr d) t true true ws ∧
      ((∃ s ∈ layoutOf d t sp rect ws, s.state.justPage = .middle) → CellFonts d (layoutOf d t sp rect ws)))
    t none (signRect d) (sections vs).1 (sections vs).2

/-- Can the sign show the page?  `vs` are its values, `b` tells if it ends with `[np]`. -/
structure PageOk (d : Dms) (t : TextAttr) (vs : List Value) (b : Bool) : Prop where
  supported : ∀ v ∈ vs, ∀ t, v.tag = some t → d.multiCfg.supportedMultiTags t = true
  npSupported : b = true → d.multiCfg.supportedMultiTags .np = true
  values : ∀ v ∈ vs, ValueOk d v
  rects : (sections vs).2.length < 50
  texts : AllSections d (fun t sp rect ws => TextsFit d rect (layoutOf d t sp rect ws))
    t none (signRect d) (sections vs).1 (sections vs).2

/-- A page of the message `ss` begins at `ss'`, with the text attributes `t'`; `t` are those of the first page -/
inductive PageAt (d : Dms) : TextAttr → List Str → TextAttr → List Str → Prop
  | first {t ss} : PageAt d t ss t ss
  | later {t ss vs rest t' ss'} : TakePage ss vs rest true →
      PageAt d (vs.foldl (TextAttr.apply (signAttr d)) t) rest t' ss' → PageAt d t ss t' ss'

/-- all pages of the message are in order, as far as they are well formed -/
def TidyMessage (d : Dms) (ms : Str) : Prop := ∀ t ss, PageAt d (signAttr d) (slices ms) t ss →
  ∀ vs rest b, TakePage ss vs rest b → vs.length ≤ 255 ∧ TidyPage d t vs

/-- Can the sign show all pages of the message? -/
def Showable (d : Dms) (ms : Str) : Prop := ∀ t ss, PageAt d (signAttr d) (slices ms) t ss →
  ∃ vs rest b, TakePage ss vs rest b ∧ PageOk d t vs b

end Ntcip.Spec
