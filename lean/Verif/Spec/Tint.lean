import Verif.Spec.Compose
import Verif.Spec.Narrow
/-
Specification of changed colors of text.
-/
namespace Ntcip.Spec

/-- the same value, or two tags for the color of text -/
inductive Retinted : Value → Value → Prop
  | same {v} : Retinted v v
  | color {c c'} : Retinted (.colorForeground c) (.colorForeground c')

/-- a color of text: one that a tag tells, or that of the sign -/
def TextColor (d : Dms) (vs : List Value) (x : Rgb) : Prop :=
  x = signForeground d ∨ ∃ c, Value.colorForeground (some c) ∈ vs ∧ x = foregroundRgb d c

/-- a pixel in the box of a graphic with one bit for each pixel, which is drawn in the colors of text and of the background -/
def OnBits (d : Dms) (vs : List Value) (i j : Nat) : Prop := ∃ n pos g, Value.graphic n pos ∈ vs ∧ GraphicOf d n pos g ∧
  g.gtype = .monochrome1Bit ∧ InBox g (corner pos) i j

/-- two pages of the same kind, time, and size, which differ only where both show a color of text -/
def RetintedPage (d : Dms) (vs vs' : List Value) (x y : Bool × Except SyntaxError Page) : Prop := SameFrame x y ∧
  ∀ p q, x.2 = .ok p → y.2 = .ok q → ∀ i j, p.raster.px i j = q.raster.px i j ∨
    (TextColor d vs (p.raster.px i j) ∧ TextColor d vs' (q.raster.px i j)) ∨
    (OnBits d vs i j ∧ d.multiCfg.colorScheme ≠ .color24Bit)

/-- the same value, or two tags of the same kind with other colors: `F` for colors of text and of color rectangles, `G` for
colors of the background -/
inductive Dyed (d : Dms) (F G : Color → Color → Prop) : Value → Value → Prop
  | same {v} : Dyed d F G v v
  | text {c c'} : F (c.getD (.ofRgb (signForeground d))) (c'.getD (.ofRgb (signForeground d))) →
      Dyed d F G (.colorForeground c) (.colorForeground c')
  | rect {r c c'} : F c c' → Dyed d F G (.colorRectangle r c) (.colorRectangle r c')
  | back {c c'} : G (c.getD (.ofRgb (signBackground d))) (c'.getD (.ofRgb (signBackground d))) →
      Dyed d F G (.colorBackground c) (.colorBackground c')
  | page {c c'} : G (c.getD (.ofRgb (signBackground d))) (c'.getD (.ofRgb (signBackground d))) →
      Dyed d F G (.pageBackground c) (.pageBackground c')

/-- two pages of the same kind, time, and size, which differ only in those colors -/
def DyedPage (d : Dms) (F G : Color → Color → Prop) (vs : List Value) (x y : Bool × Except SyntaxError Page) : Prop :=
  SameFrame x y ∧ ∀ p q, x.2 = .ok p → y.2 = .ok q → ∀ i j, p.raster.px i j = q.raster.px i j ∨
    (∃ c c', F c c' ∧ p.raster.px i j = foregroundRgb d c ∧ q.raster.px i j = foregroundRgb d c') ∨
    (∃ c c', G c c' ∧ p.raster.px i j = backgroundRgb d c ∧ q.raster.px i j = backgroundRgb d c') ∨
    (OnBits d vs i j ∧ d.multiCfg.colorScheme ≠ .color24Bit)

end Ntcip.Spec
