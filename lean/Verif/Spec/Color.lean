import Verif.Model.Multi
/-
Specification of colors.
-/
namespace Ntcip.Spec

/-- Independent reference: linear interpolation from `a` (level 0) to `b` (level 255), rounded
down towards `a`; `a ≤ b`. -/
def interpolate (a b v : Nat) : Nat := a + (b - a) * v / 255

/-- the ten classic colors in order of their numbers -/
def classicColors : List Rgb :=
  [(0, 0, 0), (255, 0, 0), (255, 255, 0), (0, 255, 0), (0, 255, 255), (0, 0, 255), (255, 0, 255),
   (255, 255, 255), (255, 165, 0), (255, 208, 0)]

/-- level `v` of a color component of 8-bit signs, between the smaller and the larger of the two components -/
def level (a b v : UInt8) : UInt8 := .ofNat (interpolate (min a.toNat b.toNat) (max a.toNat b.toNat) v.toNat)

/-- what a color looks like on a sign with the default colors `fg` and `bg`; `none`: the scheme does not have it -/
def colorValue (s : ColorScheme) (fg bg : Rgb) : Color → Option Rgb
  | .legacy v => match s with
    | .monochrome1Bit => if v.toNat = 0 then some bg else if v.toNat = 1 then some fg else none
    | .monochrome8Bit => some (level bg.1 fg.1 v, level bg.2.1 fg.2.1 v, level bg.2.2 fg.2.2 v)
    | .colorClassic | .color24Bit => classicColors[v.toNat]?
  | .rgb r g b => if s = .color24Bit then some (r, g, b) else none

/-- the color triple of a default color of the configuration -/
def configRgb : Color → Rgb
  | .legacy v => (classicColors[v.toNat]?).getD (0, 0, 0)
  | .rgb r g b => (r, g, b)

end Ntcip.Spec
