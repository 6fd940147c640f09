import Verif.Spec.Bmp
import Verif.Spec.Sequel
/-
Specification of the images written for the pages of a message.
-/
namespace Ntcip.Spec

/-- the file is an image of the raster -/
def ImageOf (bs : List UInt8) (r : Raster) : Prop :=
  BmpFile bs r.width r.height ∧ ∀ x y, bmpPixel bs x y = if x < r.width ∧ y < r.height then some (r.px x y) else none

/-- the files are images of the pages, with numbers from `i` on in their names -/
def FilesOf : Nat → List (Str × List UInt8) → List (Bool × Except SyntaxError Page) → Prop
  | _, [], [] => True
  | i, (name, bs) :: files, (_, .ok p) :: xs =>
    name = c!"render" ++ (toString i).toList ++ c!".bmp" ∧ ImageOf bs p.raster ∧ FilesOf (i + 1) files xs
  | _, _, _ => False

/-- images of the size of the sign can be written: the size of the file is in 32 bits -/
def ImagesFit (d : Dms) : Prop := 54 + 3 * (d.vmsCfg.signWidthPixels.toNat * d.vmsCfg.signHeightPixels.toNat) < 4294967296

end Ntcip.Spec
