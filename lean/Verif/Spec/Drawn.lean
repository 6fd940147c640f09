import Verif.Spec.Section
import Verif.Spec.Counted
/-
Specification of the place of every text, whether the values are in order or not.
-/
namespace Ntcip.Spec

/-- the number of the next text, counted from 0 from the last `[nl]` or `[jl]` tag or change of the page
justification -/
def numberAfter (dflt a : TextAttr) (n : Nat) : Value → Nat
  | .text _ => n + 1
  | .hexadecimalCharacter _ => n + 1
  | .newLine _ => 0
  | .justificationLine _ => 0
  | .justificationPage j => if j.getD dflt.justPage = a.justPage then n else 0
  | _ => n

/-- the numbers of the texts of the values, see `pieces` -/
def numbers (dflt : TextAttr) : TextAttr → Nat → Bool → List Value → List Nat
  | _, _, _, [] => []
  | a, n, blank, v :: vs => (piece a none 0 blank v).map (fun _ => n) ++
      numbers dflt (TextAttr.apply dflt a v) (numberAfter dflt a n v) (blankAfter blank v) vs

/-- `n` pixels are before the texts with the number `own`, by the texts `ss` after the text `prev`: the widths of those
with lower numbers, and the spaces before all but those with higher numbers -/
inductive BeforeAt (t : FontTable) (own : Nat) : Option Span → List Span → Nat → Prop
  | nil {prev} : BeforeAt t own prev [] 0
  | first {s ss w n} : SpanWidth t s w → BeforeAt t own (some s) ss n →
      BeforeAt t own none (s :: ss) ((if s.state.spanNumber < own then w else 0) + n)
  | next {p s ss g w n} : Gap t p s g → SpanWidth t s w → BeforeAt t own (some s) ss n →
      BeforeAt t own (some p) (s :: ss) ((if s.state.spanNumber ≤ own then g else 0) +
        (if s.state.spanNumber < own then w else 0) + n)

/-- `x` is the left edge of the text `s`: that of its line, and what is before it by the numbers of the texts (centered
text starts at a character cell) -/
def ExactX (d : Dms) (spans : List Span) (s : Span) (x : Nat) : Prop :=
  ∃ n total, BeforeAt d.fontDefinition s.state.spanNumber none (sameLine spans s) n ∧
    LineWidth d.fontDefinition none (sameLine spans s) total ∧ total ≤ s.state.textRectangle.width.toNat ∧
    x = if s.state.justLine = .center
      then cellEdge (signCellWidth d) (lineLeft s.state.textRectangle s.state.justLine total + n)
      else lineLeft s.state.textRectangle s.state.justLine total + n

/-- `y` is the top edge of the text `s`: its lower edge is that of its line, as counted (for text in the middle that of
a character cell) -/
def ExactY (d : Dms) (spans : List Span) (s : Span) (y : Nat) : Prop :=
  ∃ f, FontOf d.fontDefinition s f ∧ totalHeight d spans s ≤ s.state.textRectangle.height.toNat ∧
    y + f.height.toNat =
      let b := linesTop s.state.textRectangle s.state.justPage (totalHeight d spans s) +
        countedHeight d spans s s.state.lineNumber
      if s.state.justPage = .middle then cellEdge (signCellHeight d) b else b

end Ntcip.Spec
