import Verif.Spec.Order
/-
Specification of drawings that cannot be seen: each of their pixels is painted again.
-/
namespace Ntcip.Spec

/-- the value is one of those up to the next `[np]` or `[tr]` tag -/
inductive InSection (y : Value) : List Value → Prop
  | here {r} : InSection y (y :: r)
  | later {v r} : v ≠ .newPage → (∀ q, v ≠ .textRectangle q) → InSection y r → InSection y (v :: r)

/-- the value paints the pixel, whatever the colors in effect are -/
def Hides (d : Dms) (y : Value) (i j : Nat) : Prop :=
  ∀ p o, Layer d d.vmsCfg.signWidthPixels.toNat d.vmsCfg.signHeightPixels.toNat p y i j o → o ≠ none

/-- each pixel that the drawing `x` paints is painted again by one of the drawings after it, in the same text rectangle -/
def Hidden (d : Dms) (x : Value) (post : List Value) : Prop :=
  isDrawing x = true ∧ ∀ i j, Paints d x i j → ∃ y, InSection y post ∧ Hides d y i j

/-- the sign has the tag of the value, and can draw it: the color rectangle or graphic is there, and inside of the sign -/
def CanDraw (d : Dms) (x : Value) : Prop :=
  (∀ t, x.tag = some t → d.multiCfg.supportedMultiTags t = true) ∧ ValueOk d x

end Ntcip.Spec
