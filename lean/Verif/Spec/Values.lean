import Verif.Model.Multi
import Verif.Spec.Tokens
/-
Which values a MULTI item can have: the parameter ranges of the documentation / NTCIP 1203.
-/
namespace Ntcip.Spec

/-- a parameter that may be missing is at most `n` if given -/
def AtMost (n : Nat) (o : Option UInt8) : Prop := ∀ x, o = some x → x.toNat ≤ n

/-- origins count from 1 -/
def OriginOk (r : Rectangle) : Prop := 1 ≤ r.x.toNat ∧ 1 ≤ r.y.toNat

/-- parameters within their ranges; numbers need no upper bound when the type has it -/
def InRange : Value → Prop
  | .colorBackground c => ∀ r g b, c ≠ some (.rgb r g b)
  | .colorRectangle r _ => OriginOk r
  | .field id _ => id.toNat < 14
  | .flash _ a b => AtMost 99 a ∧ AtMost 99 b
  | .font f => ∀ n v, f = some (n, v) → 1 ≤ n.toNat
  | .graphic n p => 1 ≤ n.toNat ∧ ∀ x y v, p = some (x, y, v) → 1 ≤ x.toNat ∧ 1 ≤ y.toNat
  | .manufacturerSpecific _ s => ∀ t, s = some t → Plain t
  | .manufacturerSpecificEnd _ s => ∀ t, s = some t → Plain t
  | .movingText m _ _ _ _ t => (∀ d, m = .linear d → d.toNat ≤ 9) ∧ Plain t
  | .newLine s => AtMost 9 s
  | .spacingCharacter s => s.toNat ≤ 99
  | .text t => t = c!"[" ∨ t = c!"]" ∨
      (t ≠ [] ∧ Plain t ∧ ∀ c ∈ t, 1 ≤ c.toNat ∧ c.toNat ≤ 0xFF)
  | .textRectangle r => OriginOk r
  | _ => True

end Ntcip.Spec
