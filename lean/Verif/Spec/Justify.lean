import Verif.Spec.Added
import Verif.Spec.Drawn
/-
Specification of text which is moved as a whole by its justification.
-/
namespace Ntcip.Spec

/-- the value puts nothing on a line -/
def PutsNothing : Value → Prop
  | .text _ => False
  | .hexadecimalCharacter _ => False
  | .newLine _ => False
  | _ => True

/-- the value stays on the line, and does not change a justification -/
def StaysOnLine : Value → Prop
  | .text _ => True
  | .hexadecimalCharacter _ => True
  | .font _ => True
  | .colorForeground _ => True
  | .spacingCharacter _ => True
  | .spacingCharacterEnd => True
  | _ => False

/-- The raster `b` is `a` with the colors `T` at `(x, y)` over it (where they are not `none`). -/
def Over (T : Nat → Nat → Option Rgb) (x y : Nat) (a b : Raster) : Prop :=
  b.width = a.width ∧ b.height = a.height ∧
    ∀ i j, b.px i j = (if x ≤ i ∧ y ≤ j then T (i - x) (j - y) else none).getD (a.px i j)

/-- height of all lines of the texts -/
def blockHeight (d : Dms) (spans : List Span) : Nat :=
  linesHeight (decide (d.vmsCfg.charHeightPixels = 0)) d.fontDefinition (counted 0 spans) (lineCount 0 spans - 1)

/-- upper edge of text of height `h` in a text rectangle (in the middle, that of a character cell) -/
def blockTop (d : Dms) (rect : Rectangle) (j : JustificationPage) (h : Nat) : Nat :=
  if j = .middle then cellEdge (signCellHeight d) (linesTop rect j h) else linesTop rect j h

end Ntcip.Spec
