import Verif.Spec.Trade
import Verif.Spec.Hidden
/-
Specification of drawings which cover the whole sign.
-/
namespace Ntcip.Spec

/-- each pixel of the sign is painted by a drawing among the values up to the next `[np]` or `[tr]` tag -/
def CoversSign (d : Dms) (vs : List Value) : Prop :=
  ∀ i j, i < d.vmsCfg.signWidthPixels.toNat → j < d.vmsCfg.signHeightPixels.toNat → ∃ y, InSection y vs ∧ Hides d y i j

/-- after either of the values, what is set for the values that follow is the same: style of text, line spacing, times of
the page and background -/
structure SetsAlike (d : Dms) (vs ws : List Value) : Prop where
  style : styleSince d vs = styleSince d ws
  spacing : spacingSince vs = spacingSince ws
  times : pageTimes (signPage d).1 (signPage d).1 vs = pageTimes (signPage d).1 (signPage d).1 ws
  background : background (signPage d).2 (signPage d).2 vs = background (signPage d).2 (signPage d).2 ws

end Ntcip.Spec
