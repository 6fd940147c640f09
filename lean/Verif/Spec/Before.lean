import Verif.Spec.Added
import Verif.Spec.Justify
/-
Specification of text put before other text.
-/
namespace Ntcip.Spec

/-- values which put text on the line, or tell its color or its spacing -/
def TypesOnLine : Value → Prop
  | .text _ => True
  | .hexadecimalCharacter _ => True
  | .colorForeground _ => True
  | .spacingCharacter _ => True
  | .spacingCharacterEnd => True
  | _ => False

/-- The pixel is lit by a text put before (one of the first texts of the layout `more`, which has more texts than `old`),
which is above all texts of the layout `old`. -/
def LitAbove (d : Dms) (old more : List Span) (i j : Nat) : Prop :=
  ∃ s ∈ more.take (more.length - old.length), Lights d more s i j ∧ ∀ o ∈ old, ∀ y, AtY d old o y → j < y

/-- The pixel is lit by a text put before, which is to the left of all texts of the layout `old`. -/
def LitLeft (d : Dms) (old more : List Span) (i j : Nat) : Prop :=
  ∃ s ∈ more.take (more.length - old.length), Lights d more s i j ∧ ∀ o ∈ old, ∀ x, AtX d old o x → i < x

end Ntcip.Spec
