import Verif.Spec.Pattern
import Verif.Spec.Wording
/-
Specification of a pattern that is filled with other lines.
-/
namespace Ntcip.Spec

/-- a line without tags -/
def SimpleLine (l : Str) : Prop := l ≠ [] ∧ ∀ c ∈ l, c ≠ '[' ∧ c ≠ ']' ∧ 1 ≤ c.toNat ∧ c.toNat ≤ 0xFF

/-- two lines without tags, or two empty lines -/
def LinePair (l l' : Str) : Prop := (l = [] ∧ l' = []) ∨ (SimpleLine l ∧ SimpleLine l')

/-- the same value, or the text of a line in place of the text of the line with the same number -/
inductive Relined (ls ls' : List Str) : Value → Value → Prop
  | same {v} : Relined ls ls' v v
  | line {l l'} : (l, l') ∈ ls.zip ls' → Relined ls ls' (.text l) (.text l')

end Ntcip.Spec
