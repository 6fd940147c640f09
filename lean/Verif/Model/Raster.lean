import Verif.Model.Multi
/-
Model of the `pix` raster operations used by the crate.
-/
namespace Ntcip

/-- `Raster<SRgb8>`: size and pixel colors.  Only positions inside the raster are meaningful. -/
structure Raster where
  width : Nat
  height : Nat
  px : Nat → Nat → Rgb

namespace Raster

/-- `Raster::with_color(width, height, clr)` (used in render.rs:435) -/
def withColor (w h : Nat) (c : Rgb) : Raster := ⟨w, h, fun _ _ => c⟩

/-- `*raster.pixel_mut(x, y) = c` (font/mod.rs:127, graphic.rs:199).  A position outside of
the raster is a panic. -/
def setPx (r : Raster) (x y : Nat) (c : Rgb) : Res Raster :=
  if x < r.width ∧ y < r.height then
    .ok { r with px := fun i j => if i = x ∧ j = y then c else r.px i j }
  else .panic .index

/-- `raster.copy_color(Region::new(x, y, w, h), c)` (render.rs:949): fills the part of the
region which lies in the raster -/
def copyColor (r : Raster) (x y w h : Nat) (c : Rgb) : Raster :=
  { r with px := fun i j =>
      if (x ≤ i ∧ i < x + w) ∧ (y ≤ j ∧ j < y + h) then c else r.px i j }

end Raster

/-- `Raster<SRgba8>` as produced by `Graphic::to_raster`: `none` is the clear (fully
transparent) pixel, `some c` an opaque one. -/
structure RasterA where
  width : Nat
  height : Nat
  px : Nat → Nat → Option Rgb

/-- `*raster.pixel_mut(x, y) = c.convert()` (graphic.rs:170) -/
def RasterA.setPx (r : RasterA) (x y : Nat) (c : Rgb) : Res RasterA :=
  if x < r.width ∧ y < r.height then
    .ok { r with px := fun i j => if i = x ∧ j = y then some c else r.px i j }
  else .panic .index

/-- Positions `(x, y)` of a `w × h` grid in the order of
`for y in 0..h { for x in 0..w { … } }` (graphic.rs:167-173, 196-202) -/
def gridPoints (w h : Nat) : List (Nat × Nat) :=
  (List.range h).flatMap fun y => (List.range w).map fun x => (x, y)

end Ntcip
