import Verif.Spec.Hidden
/-
Specification of drawings that paint the same.
-/
namespace Ntcip.Spec

/-- Drawings one after another paint each pixel of the sign with the same colors, or do not paint it, whatever the colors in
effect are. -/
def PaintAlike (d : Dms) (X Y : List Value) : Prop :=
  ∀ p i j o, Layered d d.vmsCfg.signWidthPixels.toNat d.vmsCfg.signHeightPixels.toNat p X i j o ↔
    Layered d d.vmsCfg.signWidthPixels.toNat d.vmsCfg.signHeightPixels.toNat p Y i j o

/-- the color of a pixel of the graphic, if it is seen -/
def SeenPixel (d : Dms) (g : Graphic) (i j : Nat) (c : Color) : Prop :=
  i < g.width.toNat ∧ j < g.height.toNat ∧ PixelValue g.gtype g.bitmap (j * g.width.toNat + i) c ∧
    g.transparentColor ≠ some c ∧ colorValue d.multiCfg.colorScheme (signForeground d) (signBackground d) c ≠ none

/-- a color rectangle of one pixel of a graphic with its upper left corner at `at_` -/
def pixelRect (at_ : Nat × Nat) (i j : Nat) (c : Color) : Value :=
  .colorRectangle ⟨.ofNat (at_.1 + i + 1), .ofNat (at_.2 + j + 1), 1, 1⟩ c

/-- the values are color rectangles of one pixel each, for all pixels of the graphic that are seen, in any order -/
structure PixelRects (d : Dms) (g : Graphic) (at_ : Nat × Nat) (R : List Value) : Prop where
  each : ∀ v ∈ R, ∃ i j c, SeenPixel d g i j c ∧ v = pixelRect at_ i j c
  all : ∀ i j c, SeenPixel d g i j c → pixelRect at_ i j c ∈ R

end Ntcip.Spec
