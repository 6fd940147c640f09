import Verif.Spec.Alone
/-
Specification of the default font, justifications and times of a sign, by tags.
-/
namespace Ntcip.Spec

/-- default font, justifications and times of a sign -/
structure Defaults where
  font : UInt8
  justLine : JustificationLine
  justPage : JustificationPage
  pageOn : UInt8
  pageOff : UInt8

/-- the sign with other defaults -/
def withDefaults (d : Dms) (x : Defaults) : Dms :=
  { d with multiCfg := { d.multiCfg with
    defaultFont := x.font, defaultJustificationLine := x.justLine, defaultJustificationPage := x.justPage
    defaultPageOnTime := x.pageOn, defaultPageOffTime := x.pageOff } }

/-- the tags that set the defaults -/
def Defaults.tags (x : Defaults) : List Value :=
  [.font (some (x.font, none)), .justificationLine (some x.justLine), .justificationPage (some x.justPage),
    .pageTime (some x.pageOn) (some x.pageOff)]

/-- the value, with the defaults written where the value leaves them open -/
def spelled (x : Defaults) : Value → Value
  | .font none => .font (some (x.font, none))
  | .justificationLine none => .justificationLine (some x.justLine)
  | .justificationPage none => .justificationPage (some x.justPage)
  | .pageTime on off => .pageTime (some (on.getD x.pageOn)) (some (off.getD x.pageOff))
  | v => v

end Ntcip.Spec
