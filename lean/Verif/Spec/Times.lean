import Verif.Spec.Sequel
import Verif.Spec.Account
/-
Specification of messages which differ in page times only.
-/
namespace Ntcip.Spec

/-- is the value a `[pt]` tag? -/
def isTime : Value → Bool
  | .pageTime _ _ => true
  | _ => false

/-- the values without `[pt]` tags -/
def untimed (vs : List Value) : List Value := vs.filter fun v => !isTime v

/-- the pictures of the ON pages, in order -/
def onPictures : List (Bool × Except SyntaxError Page) → List Raster
  | [] => []
  | (true, .ok p) :: xs => p.raster :: onPictures xs
  | _ :: xs => onPictures xs

/-- the on-time and the off-time of each page of values, with the times `cur` before -/
def timesOf (d : Dms) : UInt8 × UInt8 → List (List Value) → List (UInt8 × UInt8)
  | _, [] => []
  | cur, p :: ps => pageTimes (signPage d).1 cur p :: timesOf d (pageTimes (signPage d).1 cur p) ps

/-- the durations of the pages with these times: an OFF page is there if the off-time is not zero -/
def durationsOf : List (UInt8 × UInt8) → List (Bool × Nat)
  | [] => []
  | (on, off) :: ts => (true, on.toNat) :: ((if off.toNat > 0 then [(false, off.toNat)] else []) ++ durationsOf ts)

/-- what is given: ON or OFF, and the duration -/
def durations : List (Bool × Except SyntaxError Page) → List (Bool × Nat)
  | [] => []
  | (b, .ok p) :: xs => (b, p.durationDs) :: durations xs
  | (_, .error _) :: xs => durations xs

end Ntcip.Spec
