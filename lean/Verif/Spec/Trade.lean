import Verif.Spec.Added
import Verif.Spec.Times
/-
Specification of text rectangles which can be exchanged, or left out.
-/
namespace Ntcip.Spec

/-- the text attributes after the values of a message -/
def styleSince (d : Dms) (vs : List Value) : TextAttr := vs.foldl (TextAttr.apply (signAttr d)) (signAttr d)

/-- the line spacing told on the last page, after the values of a message -/
def spacingSince (vs : List Value) : Option UInt8 :=
  vs.foldl (fun sp v => if v = .newPage then none else spacingAfter sp v) none

/-- the values are texts and tags of their style, and after them all is as before: attributes of text and line spacing -/
def Keeps (d : Dms) (t : TextAttr) (sp : Option UInt8) (ws : List Value) : Prop :=
  (∀ v ∈ ws, AddsText v) ∧ ws.foldl (TextAttr.apply (signAttr d)) t = t ∧ ws.foldl spacingAfter sp = sp

/-- the values do not begin in the text rectangle before them -/
def EndsRect : List Value → Prop
  | [] => True
  | .newPage :: _ => True
  | .textRectangle _ :: _ => True
  | _ => False

/-- the rectangles have no common pixel -/
def Sep (d : Dms) (r r' : Rectangle) : Prop :=
  ∀ i j, ¬ (PixelIn d.vmsCfg.signWidthPixels.toNat d.vmsCfg.signHeightPixels.toNat r i j ∧
    PixelIn d.vmsCfg.signWidthPixels.toNat d.vmsCfg.signHeightPixels.toNat r' i j)

/-- the number of text rectangles of a page -/
def rectCount (page : List Value) : Nat := (sections page).2.length

end Ntcip.Spec
