import Verif.Spec.Recolor
/-
Specification of a sign with 24-bit colors beside a sign with classic colors (C140).
-/
namespace Ntcip.Spec

/-- `d` has the ten classic colors, `d'` all 24-bit colors, and nothing else about the signs differs: they have the same default
colors in particular -/
structure ClassicAndFull (d d' : Dms) : Prop where
  same : SameButColors d d'
  classic : d.multiCfg.colorScheme = .colorClassic
  full : d'.multiCfg.colorScheme = .color24Bit
  fg : signForeground d' = signForeground d
  bg : signBackground d' = signBackground d

/-- no color tag of the message gives a color by its red, green and blue parts -/
def NoRgb (ms : Str) : Prop :=
  ∀ r g b, (∀ v, .ok (.ok v) ∈ values ms → v ≠ .colorForeground (some (.rgb r g b)) ∧ v ≠ .colorBackground (some (.rgb r g b)) ∧
    v ≠ .pageBackground (some (.rgb r g b)) ∧ ∀ rect, v ≠ .colorRectangle rect (.rgb r g b))

/-- the message shows no graphics of one bit -/
def NoBitmaps (d : Dms) (ms : Str) : Prop :=
  ∀ n pos, .ok (.ok (.graphic n pos)) ∈ values ms → ∀ g ∈ d.graphicDefinition, g.number = n → g.gtype ≠ .monochrome1Bit

/-- the pixels are the same, or the one of the sign with 24-bit colors has a default color -/
def SameOrDefault (d : Dms) (a b : Rgb) : Prop := a = b ∨ b = signForeground d ∨ b = signBackground d

end Ntcip.Spec
