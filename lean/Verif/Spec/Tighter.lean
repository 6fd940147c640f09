import Verif.Spec.Narrow
/-
Specification of smaller spacings.
-/
namespace Ntcip.Spec

/-- the same spacing, or a smaller one; both or none of them are told -/
inductive Smaller : Option UInt8 → Option UInt8 → Prop
  | none : Smaller none none
  | some {a b : UInt8} : b.toNat ≤ a.toNat → Smaller (some a) (some b)

/-- the same value, or a tag for the spacing of characters or lines with a smaller spacing -/
inductive Tightened : Value → Value → Prop
  | same {v} : Tightened v v
  | chars {a b : UInt8} : b.toNat ≤ a.toNat → Tightened (.spacingCharacter a) (.spacingCharacter b)
  | lines {a b : UInt8} : b.toNat ≤ a.toNat → Tightened (.newLine (some a)) (.newLine (some b))

end Ntcip.Spec
