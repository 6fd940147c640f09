import Verif.Spec.Tighter
/-
Specification of smaller fonts.
-/
namespace Ntcip.Spec

/-- the font `f'` has all characters of `f`, none of them wider; neither its height nor its spacings are larger -/
structure FontSmaller (f f' : Font) : Prop where
  height : f'.height.toNat ≤ f.height.toNat
  charSpacing : f'.charSpacing.toNat ≤ f.charSpacing.toNat
  lineSpacing : f'.lineSpacing.toNat ≤ f.lineSpacing.toNat
  characters : ∀ c e, f.character c = some e → ∃ e', f'.character c = some e' ∧ e'.width.toNat ≤ e.width.toNat

/-- each font of the first table is in the second one, too, or a smaller one of the same number -/
def FontsSmaller (t t' : FontTable) : Prop :=
  ∀ n f, FontTable.font t n = some f → ∃ f', FontTable.font t' n = some f' ∧ FontSmaller f f'

/-- the version IDs told in a message are those of the fonts in the table -/
def VersionsOf (t : FontTable) (vs : List Value) : Prop :=
  ∀ n w f, Value.font (some (n, some w)) ∈ vs → FontTable.font t n = some f → w = f.versionId

end Ntcip.Spec
