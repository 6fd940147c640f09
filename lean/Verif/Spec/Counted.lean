import Verif.Spec.Layout
/-
Specification of the lines of text, if their numbers have gaps: how they are counted for the height of the text.
-/
namespace Ntcip.Spec

/-- the span on another line -/
def Span.onLineNumber (s : Span) (n : Nat) : Span := { s with state := { s.state with lineNumber := n } }

/-- The spans on the lines on which they are counted, if there are `k` lines already: a text with the number of one of
these lines is on that line, all others begin the next line, whatever their numbers. -/
def counted : Nat → List Span → List Span
  | _, [] => []
  | k, s :: ss =>
    if s.state.lineNumber < k then s :: counted k ss else Span.onLineNumber s k :: counted (k + 1) ss

/-- the number of lines counted -/
def lineCount : Nat → List Span → Nat
  | k, [] => k
  | k, s :: ss => if s.state.lineNumber < k then lineCount k ss else lineCount (k + 1) ss

/-- height of the lines with the page justification of `s`, as counted, up to the line with the number of `s` (or the
last one) -/
def countedHeight (d : Dms) (spans : List Span) (s : Span) (n : Nat) : Nat :=
  linesHeight (decide (d.vmsCfg.charHeightPixels = 0)) d.fontDefinition (counted 0 (samePage spans s))
    (min n (lineCount 0 (samePage spans s) - 1))

/-- height of all lines with the page justification of `s`, as counted -/
def totalHeight (d : Dms) (spans : List Span) (s : Span) : Nat :=
  countedHeight d spans s (lineCount 0 (samePage spans s) - 1)

end Ntcip.Spec
