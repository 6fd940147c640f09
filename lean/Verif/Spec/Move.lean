import Verif.Spec.Accept
import Verif.Spec.Recolor
/-
Specification of messages whose rectangles and graphics are moved.
-/
namespace Ntcip.Spec

/-- a displacement: what is at column `x` and row `y` moves to column `x'` and row `y'` -/
structure Shift where
  (x y x' y' : Nat)

/-- the rectangle `r'` is `r`, moved -/
structure MovedRect (m : Shift) (r r' : Rectangle) : Prop where
  x : r'.x.toNat + m.x = r.x.toNat + m.x'
  y : r'.y.toNat + m.y = r.y.toNat + m.y'
  width : r'.width = r.width
  height : r'.height = r.height

/-- the page `b` is `a`, moved: every pixel that is on both has the color of the one it comes from -/
structure MovedRaster (m : Shift) (a b : Raster) : Prop where
  width : b.width = a.width
  height : b.height = a.height
  px : ∀ i j i' j', i' + m.x = i + m.x' → j' + m.y = j + m.y' → b.px i' j' = a.px i j

/-- values without a position -/
def Fixed : Value → Prop
  | .textRectangle _ => False
  | .colorRectangle _ _ => False
  | .graphic _ _ => False
  | _ => True

/-- the value `v'` is `v`, moved if it has a position and a size, and inside of the sign -/
inductive MovedValue (d : Dms) (m : Shift) : Value → Value → Prop
  | same {v} : Fixed v → MovedValue d m v v
  | text {r r'} : MovedRect m r r' → 0 < r.width.toNat → 0 < r.height.toNat →
      TextRect d d.vmsCfg.signWidthPixels.toNat d.vmsCfg.signHeightPixels.toNat r' →
      MovedValue d m (.textRectangle r) (.textRectangle r')
  | color {r r' c} : MovedRect m r r' → 0 < r.width.toNat → 0 < r.height.toNat →
      InsideRect d.vmsCfg.signWidthPixels.toNat d.vmsCfg.signHeightPixels.toNat r' →
      MovedValue d m (.colorRectangle r c) (.colorRectangle r' c)
  | graphic {n} {x y x' y' : UInt16} {id} : x'.toNat + m.x = x.toNat + m.x' → y'.toNat + m.y = y.toNat + m.y' →
      (∀ g ∈ d.graphicDefinition, g.number = n → x'.toNat - 1 + g.width.toNat ≤ d.vmsCfg.signWidthPixels.toNat ∧
        y'.toNat - 1 + g.height.toNat ≤ d.vmsCfg.signHeightPixels.toNat) →
      MovedValue d m (.graphic n (some (x, y, id))) (.graphic n (some (x', y', id)))

/-- values that are text, or start a line of text -/
def Writes : Value → Prop
  | .text _ => True
  | .hexadecimalCharacter _ => True
  | .newLine _ => True
  | _ => False

/-- all text of a page is in text rectangles (`inRect`: is there one before the values?) -/
def Boxed : Bool → List Value → Prop
  | _, [] => True
  | _, .newPage :: vs => Boxed false vs
  | _, .textRectangle _ :: vs => Boxed true vs
  | inRect, v :: vs => (Writes v → inRect = true) ∧ Boxed inRect vs

/-- a page without error, and the same page moved -/
def MovedPage (m : Shift) (x y : Bool × Except SyntaxError Page) : Prop :=
  x.1 = y.1 ∧ ∃ p q, x.2 = .ok p ∧ y.2 = .ok q ∧ q.durationDs = p.durationDs ∧ MovedRaster m p.raster q.raster

end Ntcip.Spec
