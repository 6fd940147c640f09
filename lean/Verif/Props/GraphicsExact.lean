import Verif.Props.Graphics
/-
C36: exactly what `to_raster` shows, for graphics of every type.
-/
namespace Ntcip
open Spec

/-- what a pixel value of a graphic type comes out as: like `decoded`, but levels of monochrome 8-bit graphics are
taken for numbers of classic colors -/
def Spec.rasterColor : ColorScheme → Color → Option Rgb
  | .monochrome8Bit, c => decoded .colorClassic c
  | s, c => decoded s c

/-- **C36 (exactly)** what `to_raster` gives for every valid graphic -/
theorem C36_exact (W H : Nat) (g : Graphic) (hg : GraphicOk W H g) :
    ∃ r, g.toRaster = .ok r ∧ r.width = g.width.toNat ∧ r.height = g.height.toNat ∧
      ∀ x y, x < g.width.toNat → y < g.height.toNat →
        ∃ c, PixelValue g.gtype g.bitmap (y * g.width.toNat + x) c ∧
          r.px x y = if g.transparentColor = some c then none else rasterColor g.gtype c := by
  by_cases ht : g.gtype = .monochrome8Bit
  · obtain ⟨r, h1, h2, h3, h4⟩ := toRaster_valid W H g hg
    refine ⟨r, h1, h2, h3, ?_⟩
    intro x y hx hy
    obtain ⟨c, hc, hr⟩ := h4 x y hx hy
    refine ⟨c, hc, ?_⟩
    rw [hr]
    congr 1
    rw [ht] at hc ⊢
    cases hc with
    | mono8 => simp [Spec.shown, rasterColor, decoded, Graphic.toRasterCtx, ht, ColorCtx.new, colorValue]
  · obtain ⟨r, h1, h2, h3, h4⟩ := C36_decoding_partial W H g hg ht
    refine ⟨r, h1, h2, h3, ?_⟩
    have : ∀ c, rasterColor g.gtype c = decoded g.gtype c := by
      intro c
      cases hs : g.gtype <;> first | rfl | exact absurd hs ht
    simpa only [this] using h4

/-- **C36 (monochrome 8-bit)** of the 256 levels, only black is shown as it is -/
theorem C36_level_iff (v : UInt8) :
    rasterColor .monochrome8Bit (.legacy v) = decoded .monochrome8Bit (.legacy v) ↔ v = 0 := by
  have : ∀ n : Fin 256, rasterColor .monochrome8Bit (.legacy (UInt8.ofNat n)) =
      decoded .monochrome8Bit (.legacy (UInt8.ofNat n)) ↔ (UInt8.ofNat n) = 0 := by decide +kernel
  have := this ⟨v.toNat, v.toNat_lt⟩
  simpa using this

example : GraphicOk 2 1 ⟨1, [], 1, 2, .monochrome8Bit, none, [7, 255]⟩ :=
  ⟨by decide, by decide, rfl, by simp⟩
example : rasterColor .monochrome8Bit (.legacy 7) = some (255, 255, 255) ∧
    rasterColor .monochrome8Bit (.legacy 255) = none ∧ rasterColor .colorClassic (.legacy 1) = some (255, 0, 0) := by
  decide +kernel

end Ntcip
