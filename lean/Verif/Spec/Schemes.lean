import Verif.Spec.Recolor
import Verif.Spec.Narrow
/-
Specification for signs with other color schemes (C141).
-/
namespace Ntcip.Spec

/-- the color is one of the sign: a number up to 1, 255 or 9 by the color scheme, or any color by its parts for 24 bits -/
def HasColor (d : Dms) (c : Color) : Prop :=
  match d.multiCfg.colorScheme, c with
  | .monochrome1Bit, .legacy n => n.toNat ≤ 1
  | .monochrome8Bit, .legacy _ => True
  | .colorClassic, .legacy n => n.toNat ≤ 9
  | .color24Bit, .legacy n => n.toNat ≤ 9
  | .color24Bit, .rgb _ _ _ => True
  | _, .rgb _ _ _ => False

/-- the color is told in a tag of the message -/
def TellsColor (ms : Str) (c : Color) : Prop :=
  .ok (.ok (.colorForeground (some c))) ∈ values ms ∨ .ok (.ok (.colorBackground (some c))) ∈ values ms ∨
    .ok (.ok (.pageBackground (some c))) ∈ values ms ∨ ∃ r, .ok (.ok (.colorRectangle r c)) ∈ values ms

/-- the graphic shows the same colors on both signs: a bitmap needs that both signs or none have 24-bit colors (default colors are not
shown in bitmaps without), a graphic of one byte for each pixel needs colors that both signs have or none, and a graphic of 24 bits
needs two signs with 24-bit colors -/
def SharedGraphic (d d' : Dms) (g : Graphic) : Prop :=
  match g.gtype with
  | .monochrome1Bit => d.multiCfg.colorScheme = .color24Bit ↔ d'.multiCfg.colorScheme = .color24Bit
  | .color24Bit => d.multiCfg.colorScheme = .color24Bit ∧ d'.multiCfg.colorScheme = .color24Bit
  | _ => ∀ b ∈ g.bitmap, HasColor d (.legacy b) ↔ HasColor d' (.legacy b)

/-- the message shows only such graphics -/
def SharedGraphics (d d' : Dms) (ms : Str) : Prop :=
  ∀ n pos, .ok (.ok (.graphic n pos)) ∈ values ms → ∀ g ∈ d.graphicDefinition, g.number = n → SharedGraphic d d' g

/-- the message shows only such graphics, or graphics of 24 bits, whose colors are those of their bytes on any sign -/
def PlainGraphics (d d' : Dms) (ms : Str) : Prop :=
  ∀ n pos, .ok (.ok (.graphic n pos)) ∈ values ms → ∀ g ∈ d.graphicDefinition, g.number = n →
    SharedGraphic d d' g ∨ g.gtype = .color24Bit

end Ntcip.Spec
