import Verif.Spec.Compose
import Verif.Spec.Accept
/-
Specification of text added at the end of a message.
-/
namespace Ntcip.Spec

/-- values which only add text, or tell its style -/
def AddsText : Value → Prop
  | .text _ => True
  | .hexadecimalCharacter _ => True
  | .newLine _ => True
  | .font _ => True
  | .colorForeground _ => True
  | .justificationLine _ => True
  | .justificationPage _ => True
  | .spacingCharacter _ => True
  | .spacingCharacterEnd => True
  | _ => False

/-- the last text rectangle of a message: attributes of text and line spacing before it, the rectangle, and its values -/
structure LastText where
  attr : TextAttr
  spacing : Option UInt8
  rect : Rectangle
  values : List Value

/-- the attributes of text after the values of the text rectangle -/
def LastText.after (d : Dms) (l : LastText) : TextAttr := l.values.foldl (TextAttr.apply (signAttr d)) l.attr

/-- the last text rectangle with one more value of the message -/
def LastText.add (d : Dms) (l : LastText) : Value → LastText
  | .newPage => ⟨l.after d, none, signRect d, []⟩
  | .textRectangle r => ⟨l.after d, l.values.foldl spacingAfter l.spacing, opened d r, []⟩
  | v => { l with values := l.values ++ [v] }

/-- the last text rectangle of a message -/
def lastText (d : Dms) (vs : List Value) : LastText := vs.foldl (LastText.add d) ⟨signAttr d, none, signRect d, []⟩

/-- The added values begin with a new line below text at the top, or with another page justification; `t` are the
attributes of text before. -/
def BeginsBelow (dflt t : TextAttr) : List Value → Prop
  | .newLine _ :: _ => t.justPage ≠ .middle ∧ t.justPage ≠ .bottom
  | .justificationPage j :: _ => j.getD dflt.justPage ≠ t.justPage
  | _ => False

/-- The pixel is lit by an added text (one of the layout `more`, but not of the layout `old`), which is below all old
texts with its page justification. -/
def LitBelow (d : Dms) (old more : List Span) (i j : Nat) : Prop :=
  ∃ s ∈ more.drop old.length, Lights d more s i j ∧
    ∀ o ∈ old, o.state.justPage = s.state.justPage → ∀ y f, AtY d old o y → FontOf d.fontDefinition o f →
      y + f.height.toNat ≤ j

end Ntcip.Spec
