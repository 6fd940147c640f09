import Verif.Spec.Pages
/-
Specification of one page of a message, shown alone.
-/
namespace Ntcip.Spec

/-- tags of which the effect stays for the following pages -/
def isState : Value → Bool
  | .font _ => true
  | .justificationLine _ => true
  | .justificationPage _ => true
  | .spacingCharacter _ => true
  | .spacingCharacterEnd => true
  | .colorForeground _ => true
  | .colorBackground _ => true
  | .pageBackground _ => true
  | .pageTime _ _ => true
  | _ => false

/-- `ys` is what is given for the page number `k` (counted from 0) of a message that gives `xs`: its ON page and the
OFF page after it, if any -/
def ShareOf {α : Type} (xs : List (Bool × α)) (k : Nat) (ys : List (Bool × α)) : Prop :=
  ∃ pre post, xs = pre ++ ys ++ post ∧ (pre.filter Prod.fst).length = k ∧
    (∃ p off, ys = (true, p) :: off ∧ ∀ y ∈ off, y.1 = false) ∧ ∀ y ∈ post.head?, y.1 = true

/-- everything that stays from earlier pages is the same after the values `us` as after `vs`: attributes of text, page
times and background color -/
def SameState (d : Dms) (us vs : List Value) : Prop :=
  us.foldl (TextAttr.apply (signAttr d)) (signAttr d) = vs.foldl (TextAttr.apply (signAttr d)) (signAttr d) ∧
  pageTimes (signPage d).1 (signPage d).1 us = pageTimes (signPage d).1 (signPage d).1 vs ∧
  background (signPage d).2 (signPage d).2 us = background (signPage d).2 (signPage d).2 vs

end Ntcip.Spec
