import Verif.Model.Render
/-
Specification of property C123: fonts which agree on the characters a message uses.
-/
namespace Ntcip.Spec

/-- the character is in a text of the message, or the character of one of its `[hc…]` tags -/
def UsesChar (ms : Str) (c : Char) : Prop :=
  (∃ t, .ok (.ok (.text t)) ∈ values ms ∧ c ∈ t) ∨
  ∃ hc, .ok (.ok (.hexadecimalCharacter hc)) ∈ values ms ∧ hc.toNat = c.toNat

/-- The fonts have the same number, height and spacings, and the same characters of the code points `C`.  Their names,
the order of their characters and all other characters may differ. -/
structure SameGlyphs (C : Char → Prop) (f f' : Font) : Prop where
  number : f'.number = f.number
  height : f'.height = f.height
  charSpacing : f'.charSpacing = f.charSpacing
  lineSpacing : f'.lineSpacing = f.lineSpacing
  glyphs : ∀ c, C c → ∀ e : CharacterEntry, e.number.toNat = c.toNat → (e ∈ f.characters ↔ e ∈ f'.characters)

end Ntcip.Spec
