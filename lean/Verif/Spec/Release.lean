import Verif.Model.Release
import Verif.Spec.Pages
/-
Pages in release builds.
-/
namespace Ntcip.Spec

/-- Calling `next` repeatedly in a release build gives the items `xs`, each marked as ON page or not, and ends in the
state `pg'` -/
inductive ReleaseSteps (d : Dms) : Pages → List (Bool × Except SyntaxError Page) → Pages → Prop
  | nil {pg} : ReleaseSteps d pg [] pg
  | cons {pg pg1 pg' x xs} : Release.next d pg = .ok (some x, pg1) → ReleaseSteps d pg1 xs pg' →
      ReleaseSteps d pg ((isOn pg.pageState, x) :: xs) pg'

/-- The pages of the message in a release build are exactly `xs` -/
def ReleaseYields (d : Dms) (ms : Str) (xs : List (Bool × Except SyntaxError Page)) : Prop :=
  ∃ pg', ReleaseSteps d (Pages.new d ms) xs pg' ∧ (Release.next d pg' = .ok (none, pg'))

end Ntcip.Spec
