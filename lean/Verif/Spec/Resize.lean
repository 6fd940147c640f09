import Verif.Spec.Added
import Verif.Spec.Narrow
import Verif.Lemmas.Safe
/-
Specification of text rectangles of other sizes.
-/
namespace Ntcip.Spec

/-- the edges of the rectangle which text with the line justification is placed at, are the same -/
def SideKept (r r' : Rectangle) : JustificationLine → Prop
  | .center => r.x.toNat - 1 = r'.x.toNat - 1 ∧ r.width.toNat = r'.width.toNat
  | .right => r.x.toNat - 1 + r.width.toNat = r'.x.toNat - 1 + r'.width.toNat
  | _ => r.x.toNat - 1 = r'.x.toNat - 1

/-- the edges of the rectangle which text with the page justification is placed at, are the same -/
def LevelKept (r r' : Rectangle) : JustificationPage → Prop
  | .middle => r.y.toNat - 1 = r'.y.toNat - 1 ∧ r.height.toNat = r'.height.toNat
  | .bottom => r.y.toNat - 1 + r.height.toNat = r'.y.toNat - 1 + r'.height.toNat
  | _ => r.y.toNat - 1 = r'.y.toNat - 1

/-- For all texts of the values `us` (after text with the attributes `t`) the edges of the rectangle which they are placed
at are the same. -/
def KeepsEdges (d : Dms) (t : TextAttr) (us : List Value) (r r' : Rectangle) : Prop :=
  ∀ p ∈ pieces (signAttr d) t none 0 true us, SideKept r r' p.attr.justLine ∧ LevelKept r r' p.attr.justPage

/-- what follows the values of a text rectangle: nothing, a new page, or the next text rectangle -/
def RectEnds : List Value → Prop
  | [] => True
  | .newPage :: _ => True
  | .textRectangle _ :: _ => True
  | _ => False

/-- The same page.  Only the size of the blank page of an off time may be another. -/
def SameButBlank (x x' : Bool × Except SyntaxError Page) : Prop :=
  x = x' ∨ ∃ q q', x = (false, .ok q) ∧ x' = (false, .ok q') ∧ q.durationDs = q'.durationDs

/-- The rectangle `r'` is a valid text rectangle which is as wide and as high as `r`, or more.  On a sign with character cells
it does not begin above `r`. -/
structure AsLarge (d : Dms) (r r' : Rectangle) : Prop where
  fits : RectFits r'
  valid : TextRect d d.vmsCfg.signWidthPixels.toNat d.vmsCfg.signHeightPixels.toNat r'
  width : (opened d r).width.toNat ≤ (opened d r').width.toNat
  height : (opened d r).height.toNat ≤ (opened d r').height.toNat
  cells : d.vmsCfg.charHeightPixels.toNat ≤ 1 ∨ r.y.toNat ≤ r'.y.toNat

/-- the same value, or a text rectangle as large or larger -/
inductive Grown (d : Dms) : Value → Value → Prop
  | same {v} : Grown d v v
  | rect {r r'} : AsLarge d r r' → Grown d (.textRectangle r) (.textRectangle r')

/-- Two pages of the same kind (on or off), with the same time.  The pages of an on time are of the same size. -/
def SameTime (x y : Bool × Except SyntaxError Page) : Prop := x.1 = y.1 ∧ ∃ p q, x.2 = .ok p ∧ y.2 = .ok q ∧
  p.durationDs = q.durationDs ∧ (x.1 = true → p.raster.width = q.raster.width ∧ p.raster.height = q.raster.height)

end Ntcip.Spec
