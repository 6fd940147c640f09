import Verif.Spec.Sequel
/-
Specification of tags for the style of what follows: fonts, colors, character spacing and times.
-/
namespace Ntcip.Spec

/-- a tag that changes the look of what follows, but not its place by itself -/
def isStyle : Value → Bool
  | .font _ => true
  | .spacingCharacter _ => true
  | .spacingCharacterEnd => true
  | .colorForeground _ => true
  | .colorBackground _ => true
  | .pageBackground _ => true
  | .pageTime _ _ => true
  | _ => false

end Ntcip.Spec
