import Verif.Spec.Recolor
import Verif.Props.Layout
/-
Specification of rectangles that are not on the sign (C109).
-/
namespace Ntcip.Spec

/-- Values that are equal, or rectangles of one kind (in one color) that are both not accepted by the sign: a text rectangle
must be inside of the sign and aligned to its character cells (`TextRect`), a color rectangle must be inside (`InsideRect`). -/
inductive OffSign (d : Dms) : Value → Value → Prop
  | refl (v) : OffSign d v v
  | text {r r'} : ¬ TextRect d d.vmsCfg.signWidthPixels.toNat d.vmsCfg.signHeightPixels.toNat r →
      ¬ TextRect d d.vmsCfg.signWidthPixels.toNat d.vmsCfg.signHeightPixels.toNat r' →
      OffSign d (.textRectangle r) (.textRectangle r')
  | fill {r r' c} : ¬ InsideRect d.vmsCfg.signWidthPixels.toNat d.vmsCfg.signHeightPixels.toNat r →
      ¬ InsideRect d.vmsCfg.signWidthPixels.toNat d.vmsCfg.signHeightPixels.toNat r' →
      OffSign d (.colorRectangle r c) (.colorRectangle r' c)

/-- items of two messages that read the same (or fail alike), or as such rectangles -/
def OffItem (d : Dms) (s s' : Str) : Prop :=
  tryFrom s' = tryFrom s ∨ ∃ v w, tryFrom s = .ok (.ok v) ∧ tryFrom s' = .ok (.ok w) ∧ OffSign d v w

/-- the same error, where each names the rectangle as written in its message -/
inductive OffError (d : Dms) : SyntaxError → SyntaxError → Prop
  | refl (e) : OffError d e e
  | tag {v w} : OffSign d v w → OffError d (.unsupportedTag v.display) (.unsupportedTag w.display)
  | value {v w} : OffSign d v w → OffError d (.unsupportedTagValue v.display) (.unsupportedTagValue w.display)

/-- the same page, or the same error -/
def OffResult (d : Dms) : Except SyntaxError Page → Except SyntaxError Page → Prop
  | .ok p, .ok q => q = p
  | .error e, .error f => OffError d e f
  | _, _ => False

end Ntcip.Spec
