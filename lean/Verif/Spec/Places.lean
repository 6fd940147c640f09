import Verif.Spec.Wording
import Verif.Spec.Drawn
/-
Specification of the texts of a line that move when other texts of the line are changed.
-/
namespace Ntcip.Spec

/-- the texts of a text rectangle with their numbers on their lines -/
def numberedLayout (d : Dms) (t : TextAttr) (sp : Option UInt8) (rect : Rectangle) (ws : List Value) : List Span :=
  List.zipWith (fun s n => { s with state := { s.state with spanNumber := n } }) (layoutOf d t sp rect ws)
    (numbers (signAttr d) t 0 true ws)

/-- Does a change of the text `u`, on the same line and with the same justification, move the text `s`?  Text at the left
is moved by texts before it, text at the right by texts after it, text in the center by all texts. -/
def Moves (u s : Span) : Prop :=
  match s.state.justLine with
  | .center => True
  | .right => s.state.spanNumber ≤ u.state.spanNumber
  | _ => u.state.spanNumber < s.state.spanNumber

/-- does the text `s` of the texts `spans` light the pixel? -/
def LitBy (d : Dms) (spans : List Span) (s : Span) (i j : Nat) : Prop :=
  ∃ x y, ExactX d spans s x ∧ ExactY d spans s y ∧ LightsAt d.fontDefinition s x y i j

/-- Is the pixel lit, in one of the two, by a text which is another text, or which is moved by another text of its line?
`ws` and `ws'` are the values of a text rectangle `rect`, with the same tags. -/
def NewPlaces (d : Dms) (t : TextAttr) (sp : Option UInt8) (rect : Rectangle) (ws ws' : List Value) (i j : Nat) : Prop :=
  let L := numberedLayout d t sp rect ws
  let L' := numberedLayout d t sp rect ws'
  ∃ (k : Nat) (s s' : Span), L[k]? = some s ∧ L'[k]? = some s' ∧ (LitBy d L s i j ∨ LitBy d L' s' i j) ∧
  ∃ (m : Nat) (u u' : Span), L[m]? = some u ∧ L'[m]? = some u' ∧ u.str ≠ u'.str ∧ u ∈ sameLine L s ∧ (m = k ∨ Moves u s)

/-- Is the pixel in the rows of a line with another text `u`, and on the side of that text where its line may change: not
to the left of it, if its line justification is left, and not to the right of it, if it is right (and no other text of the
line has its number)?  The text may be at its old or its new place. -/
def BesideNew (d : Dms) (t : TextAttr) (sp : Option UInt8) (rect : Rectangle) (ws ws' : List Value) (i j : Nat) : Prop :=
  let L := numberedLayout d t sp rect ws
  let L' := numberedLayout d t sp rect ws'
  ∃ (m : Nat) (u u' : Span), L[m]? = some u ∧ L'[m]? = some u' ∧ u.str ≠ u'.str ∧
  ∃ K v, (K = L ∧ v = u ∨ K = L' ∧ v = u') ∧ InRows d K v j ∧
    (u.state.justLine = .left → ∃ x, ExactX d K v x ∧ x ≤ i) ∧
    (u.state.justLine = .right → (∀ o ∈ sameLine K v, o.state.spanNumber = v.state.spanNumber → o = v) →
      ∃ x w, ExactX d K v x ∧ SpanWidth d.fontDefinition v w ∧ i < x + w)

end Ntcip.Spec
