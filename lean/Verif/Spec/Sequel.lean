import Verif.Spec.Alone
import Verif.Spec.Accept
/-
Specification of messages one after another.
-/
namespace Ntcip.Spec

/-- tags that take back the effect of all others -/
def resetTags : List Value := [.font none, .justificationLine none, .justificationPage none, .spacingCharacterEnd,
  .colorForeground none, .pageBackground none, .pageTime none none]

/-- after the values, everything that stays is as at the beginning of a message -/
def Restored (d : Dms) (vs : List Value) : Prop := SameState d vs []

/-- the sign supports the tag of the value, and the value itself -/
def Usable (d : Dms) (v : Value) : Prop :=
  (∀ t, v.tag = some t → d.multiCfg.supportedMultiTags t = true) ∧ ValueOk d v

/-- the message is shown without error and gives `xs` -/
def ShownAs (d : Dms) (ms : Str) (xs : List (Bool × Except SyntaxError Page)) : Prop := Yields d ms xs ∧ NoError xs

end Ntcip.Spec
