import Verif.Spec.Sequel
/-
Specification of values whose order does not matter: drawings (color rectangles and graphics), and what is beside them.
-/
namespace Ntcip.Spec

/-- a color rectangle or graphic -/
def isDrawing : Value → Bool
  | .colorRectangle _ _ => true
  | .graphic _ _ => true
  | _ => false

/-- the drawing paints the pixel, in some color, on a sign of this size -/
def Paints (d : Dms) (v : Value) (i j : Nat) : Prop :=
  ∃ p c, Layer d d.vmsCfg.signWidthPixels.toNat d.vmsCfg.signHeightPixels.toNat p v i j (some c)

/-- A drawing can be moved over a value that is no drawing and does not begin a page or text rectangle, a graphic not over
color tags (it is drawn in these colors) -/
def Passes (x y : Value) : Prop :=
  isDrawing x = true ∧ isDrawing y = false ∧ y ≠ .newPage ∧ (∀ r, y ≠ .textRectangle r) ∧
    ∀ n pos, x = .graphic n pos → ∀ c, y ≠ .colorForeground c ∧ y ≠ .colorBackground c

/-- two drawings without a common pixel -/
def NoCommonPixel (d : Dms) (x y : Value) : Prop :=
  isDrawing x = true ∧ isDrawing y = true ∧ ∀ i j, ¬ (Paints d x i j ∧ Paints d y i j)

/-- two values in a row can be exchanged -/
def Free (d : Dms) (x y : Value) : Prop := Passes x y ∨ Passes y x ∨ NoCommonPixel d x y

/-- the second list is the first one after any number of such exchanges -/
inductive Reordered (d : Dms) (a : List Value) : List Value → Prop
  | same : Reordered d a a
  | step {pre x y post} : Reordered d a (pre ++ x :: y :: post) → Free d x y → Reordered d a (pre ++ y :: x :: post)

end Ntcip.Spec
