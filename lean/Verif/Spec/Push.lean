import Verif.Spec.Justify
import Verif.Spec.Added

/-!
What the reader of a sign expects of another word in the middle of a line: specification of `C138`.

The line is drawn in three parts, from left to right: the texts before the word, the word, and the texts after it.
Nothing here is taken from the renderer; `SpanWidth` (Spec/Layout) is the width of a text, `lineLeft` (Spec/Place) the
left edge of a line with its justification, and `Over` (Spec/Justify) a picture put over another one.
-/

namespace Ntcip.Spec

/-- `b` is `a` with three parts of one line put over it: the part before a text, which is `nb` columns wide (with the gap
before the text), the text, which is `w` columns wide, and the part after it. The line starts at column `x`. -/
def InThreeParts (B A T : Nat → Nat → Option Rgb) (x nb w : Nat) (a b : Raster) : Prop :=
  ∃ a1 a2, Over B x 0 a a1 ∧ Over A (x + nb) 0 a1 a2 ∧ Over T (x + nb + w) 0 a2 b

end Ntcip.Spec
