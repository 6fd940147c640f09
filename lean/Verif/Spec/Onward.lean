import Verif.Spec.Added
/-
Specification of text typed on at the end of a line.
-/
namespace Ntcip.Spec

/-- values which add text to the line, or tell its style, but not its font -/
def AddsOnLine : Value → Prop
  | .text _ => True
  | .hexadecimalCharacter _ => True
  | .colorForeground _ => True
  | .justificationLine _ => True
  | .spacingCharacter _ => True
  | .spacingCharacterEnd => True
  | _ => False

/-- the values end with a text -/
def EndsInText (vs : List Value) : Prop :=
  ∃ us v, vs = us ++ [v] ∧ ((∃ t, v = .text t) ∨ ∃ c, v = .hexadecimalCharacter c)

/-- The added values go on after text at the left, or begin with another line justification; `t` are the attributes of
text before. -/
def GoesOn (t : TextAttr) : List Value → Prop
  | .justificationLine _ :: _ => True
  | _ => t.justLine ≠ .center ∧ t.justLine ≠ .right

/-- The pixel is lit by an added text (one of the layout `more`, but not of the layout `old`), which is to the right of all
old texts of its line with its justification. -/
def LitRight (d : Dms) (old more : List Span) (i j : Nat) : Prop :=
  ∃ s ∈ more.drop old.length, Lights d more s i j ∧
    ∀ o ∈ old, o.state.justPage = s.state.justPage → o.state.lineNumber = s.state.lineNumber →
      o.state.justLine = s.state.justLine → ∀ x w, AtX d old o x → SpanWidth d.fontDefinition o w → x + w ≤ i

/-- The pixel is lit by the last text of the layout `more`, to the right of all texts of its line with its justification as
they were in the layout `old`: also of the last text of `old` itself. -/
def LitTyped (d : Dms) (old more : List Span) (i j : Nat) : Prop :=
  ∃ s, more.getLast? = some s ∧ Lights d more s i j ∧
    ∀ o ∈ old, o.state.justPage = s.state.justPage → o.state.lineNumber = s.state.lineNumber →
      o.state.justLine = s.state.justLine → ∀ x w, AtX d old o x → SpanWidth d.fontDefinition o w → x + w ≤ i

end Ntcip.Spec
