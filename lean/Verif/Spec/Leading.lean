import Verif.Spec.Justify
import Verif.Spec.Stack

/-!
What the reader of a sign expects of the spacing of a new line: specification of `C139`.

The text is drawn in two blocks: the lines above the new line, and the lines from it on. `linesHeight` (Spec/Layout) is
the height of lines, `fontLineSpacing` (Spec/Layout) the line spacing of the fonts on a line, `linesTop` (Spec/Place) the upper edge of text with its page justification, and `Over`
(Spec/Justify) a picture put over another one.
-/

namespace Ntcip.Spec

/-- the rows between line `l` of a layout and the next line, which begins with an `[nl]` tag of spacing `s`: these are
told by the tag, or else they are the mean of the line spacings of the fonts of the two lines (rounded up) -/
def gapOf (t : FontTable) (s : Option UInt8) (l : Nat) (ss : List Span) : Nat :=
  (s.map UInt8.toNat).getD ((fontLineSpacing t ss l + fontLineSpacing t ss (l + 1) + 1) / 2)

/-- `b` is `a` with two blocks of lines put over it: the upper one at row `y`, which is `h` rows high, and the lower one
`s` rows below it. -/
def InTwoBlocks (B T : Nat → Nat → Option Rgb) (y h s : Nat) (a b : Raster) : Prop :=
  ∃ a1, Over B 0 y a a1 ∧ Over T 0 (y + h + s) a1 b

end Ntcip.Spec
