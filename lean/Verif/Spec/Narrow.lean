import Verif.Spec.Stop
import Verif.Spec.Account
/-
Specification of messages with the same tags, and narrower texts.
-/
namespace Ntcip.Spec

/-- In every font of the table that has all characters of `a`, there are all those of `b`, and `b` is not wider than `a`
(whatever the character spacing is). -/
def Narrower (t : FontTable) (a b : Str) : Prop := ∀ f ∈ t, ∀ es, Defined f a es →
  ∃ es', Defined f b es' ∧ ∀ cs, advance cs (es'.map (·.width.toNat)) ≤ advance cs (es.map (·.width.toNat))

/-- the same value, or a narrower text in place of a text -/
inductive Reduced (t : FontTable) : Value → Value → Prop
  | same {v} : Reduced t v v
  | text {a b} : Narrower t a b → Reduced t (.text a) (.text b)

/-- the lists are of the same length, and `R` holds of the items at each place -/
inductive Pairwise2 {α β : Type} (R : α → β → Prop) : List α → List β → Prop
  | nil : Pairwise2 R [] []
  | cons {a b as bs} : R a b → Pairwise2 R as bs → Pairwise2 R (a :: as) (b :: bs)

/-- the same sort of page (ON or OFF), shown for the same time, of the same size -/
def SameFrame (x y : Bool × Except SyntaxError Page) : Prop := x.1 = y.1 ∧ ∃ p q, x.2 = .ok p ∧ y.2 = .ok q ∧
  p.durationDs = q.durationDs ∧ p.raster.width = q.raster.width ∧ p.raster.height = q.raster.height

end Ntcip.Spec
