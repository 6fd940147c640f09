import Verif.Spec.Drawn
import Verif.Props.Exact
import Verif.Props.Graphics
/-
Specification of a whole page: background, and for each text rectangle graphics, then text.
-/
namespace Ntcip.Spec

/-- the colors in effect for graphics -/
structure Colors where
  fg : Color
  bg : Color

/-- effect of a value on the colors for the graphics after it -/
def Colors.apply (d : Dms) (p : Colors) : Value → Colors
  | .colorForeground c => { p with fg := c.getD (.ofRgb (signForeground d)) }
  | .colorBackground c => { p with bg := c.getD (.ofRgb (signBackground d)) }
  | _ => p

/-- the color context of a sign with these colors -/
def Colors.ctx (d : Dms) (p : Colors) : ColorCtx := { signCtx d with fgCurrent := p.fg, bgCurrent := p.bg }

/-- the graphic of a `[g]` tag: the one with its number, whose version ID must be the requested one -/
def GraphicOf (d : Dms) (n : UInt8) (pos : Option (UInt16 × UInt16 × Option UInt16)) (g : Graphic) : Prop :=
  g ∈ d.graphicDefinition ∧ g.number = n ∧ ∀ x y id, pos = some (x, y, some id) → id = g.versionId

/-- upper left corner of a `[g]` tag, counted from 0 -/
def corner : Option (UInt16 × UInt16 × Option UInt16) → Nat × Nat
  | some (x, y, _) => (x.toNat - 1, y.toNat - 1)
  | none => (0, 0)

/-- is the pixel in the box of the graphic? -/
def InBox (g : Graphic) (at_ : Nat × Nat) (i j : Nat) : Prop :=
  at_.1 ≤ i ∧ i < at_.1 + g.width.toNat ∧ at_.2 ≤ j ∧ j < at_.2 + g.height.toNat

/-- the color that a value, with the colors `p` in effect, paints the pixel `(i, j)` of a page of `W`×`H` pixels
(`none`: it does not paint the pixel) -/
inductive Layer (d : Dms) (W H : Nat) (p : Colors) : Value → Nat → Nat → Option Rgb → Prop
  | rect {r c i j} : PixelIn W H r i j → Layer d W H p (.colorRectangle r c) i j (some (foregroundRgb d c))
  | offRect {r c i j} : ¬ PixelIn W H r i j → Layer d W H p (.colorRectangle r c) i j none
  | graphic {n pos g c i j} : GraphicOf d n pos g → InBox g (corner pos) i j →
      PixelValue g.gtype g.bitmap ((j - (corner pos).2) * g.width.toNat + (i - (corner pos).1)) c →
      Layer d W H p (.graphic n pos) i j
        (if g.transparentColor = some c then none else shown g.gtype (p.ctx d) c)
  | offGraphic {n pos g i j} : GraphicOf d n pos g → ¬ InBox g (corner pos) i j →
      Layer d W H p (.graphic n pos) i j none
  | other {v i j} : (∀ r c, v ≠ .colorRectangle r c) → (∀ n pos, v ≠ .graphic n pos) → Layer d W H p v i j none

/-- the color that the values paint the pixel, later ones over earlier ones -/
inductive Layered (d : Dms) (W H : Nat) : Colors → List Value → Nat → Nat → Option Rgb → Prop
  | nil {p i j} : Layered d W H p [] i j none
  | cons {p v vs i j o u} : Layer d W H p v i j o → Layered d W H (p.apply d v) vs i j u →
      Layered d W H p (v :: vs) i j (u.or o)

/-- `b` is `a` with the color rectangles and graphics of the values drawn -/
structure GraphicsOn (d : Dms) (p : Colors) (vs : List Value) (a b : Raster) : Prop where
  width : b.width = a.width
  height : b.height = a.height
  px : ∀ i j, ∃ o, Layered d a.width a.height p vs i j o ∧ b.px i j = o.getD (a.px i j)

/-- `b` is `a` with the text of the values drawn, in the rectangle `rect`; `t` are the attributes in effect before.
Each text is drawn once, at the place of its line and number (`ExactX`, `ExactY`), which are those of C62 and C63 for
tidy values.  It is inside of the rectangle, except on signs with character cells for text in the vertical middle with
fonts of a height that is no multiple of the cell height. -/
def TextDrawn (d : Dms) (t : TextAttr) (sp : Option UInt8) (rect : Rectangle) (vs : List Value) (a b : Raster) : Prop :=
  ∃ ps : List (Span × Nat × Nat), let spans := ps.map Prod.fst
    spans.map pieceOf = pieces (signAttr d) t sp 0 true vs ∧
    (spans.map (·.state.spanNumber) = numbers (signAttr d) t 0 true vs ∧
      ∀ p ∈ ps, ExactX d spans p.1 p.2.1 ∧ ExactY d spans p.1 p.2.2) ∧
    (∀ s ∈ spans, s.state.textRectangle = rect ∧
      s.state.colorCtx.foregroundRgb = foregroundRgb d (pieceOf s).attr.foreground ∧ ∀ ch ∈ s.str, ch.toNat ≠ 0) ∧
    (∀ p ∈ ps, Within d.fontDefinition rect p) ∧ TextAt d.fontDefinition ps a b ∧
    (Tidy (signAttr d) t true true vs → Ordered spans ∧ ∀ p ∈ ps, AtX d spans p.1 p.2.1 ∧ AtY d spans p.1 p.2.2) ∧
    (((∃ s ∈ spans, s.state.justPage = .middle) → CellFonts d spans) →
      ChangesIn (fun c => ∃ s ∈ spans, c = foregroundRgb d (pieceOf s).attr.foreground) rect a b)

/-- the values of a page up to the first `[tr]` tag, and the rectangle and values of each `[tr]` tag -/
def sections : List Value → List Value × List (Rectangle × List Value)
  | [] => ([], [])
  | .textRectangle r :: vs => ([], (r, (sections vs).1) :: (sections vs).2)
  | v :: vs => (v :: (sections vs).1, (sections vs).2)

/-- the rectangle of the last `[tr]` tag of a page, `rect` if there is none -/
def lastRect (d : Dms) (rect : Rectangle) : List (Rectangle × List Value) → Rectangle
  | [] => rect
  | (r, _) :: rest => lastRect d (opened d r) rest

/-- The page `b` is `a`, with color rectangles and graphics, then the text of the values `vs` in the rectangle
`rect`, then those of the following text rectangles.  `bg` is the background color of the page. -/
inductive Composed (d : Dms) (bg : Color) : TextAttr → Option UInt8 → Rectangle → List Value →
    List (Rectangle × List Value) → Raster → Raster → Prop
  | last {t sp rect vs a g b} : GraphicsOn d ⟨t.foreground, bg⟩ vs a g → TextDrawn d t sp rect vs g b →
      Composed d bg t sp rect vs [] a b
  | next {t sp rect vs r ws rest a g u b} : GraphicsOn d ⟨t.foreground, bg⟩ vs a g →
      TextDrawn d t sp rect vs g u →
      Composed d bg (vs.foldl (TextAttr.apply (signAttr d)) t) (vs.foldl spacingAfter sp)
        (opened d r) ws rest u b →
      Composed d bg t sp rect vs ((r, ws) :: rest) a b

end Ntcip.Spec
