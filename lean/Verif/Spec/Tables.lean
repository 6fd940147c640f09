import Verif.Model.Sign
/-
What it means for a font or graphic table to be valid, independently of the validation code.
-/
namespace Ntcip.Spec

/-- `bytes` is the least number of bytes that holds `bits` bits -/
def BytesFor (bits bytes : Nat) : Prop := bits ≤ 8 * bytes ∧ 8 * bytes < bits + 8

/-- numbers other than 0 appear once -/
def UniqueNumbers {α : Type} (num : α → Nat) (l : List α) : Prop :=
  ∀ i j : Nat, ∀ a b : α, l[i]? = some a → l[j]? = some b → num a ≠ 0 → num a = num b → i = j

/-- A numbered font which is valid -/
structure FontOk (f : Font) : Prop where
  height : 0 < f.height.toNat
  bitmaps : ∀ c ∈ f.characters, c.number.toNat ≠ 0 →
    BytesFor (c.width.toNat * f.height.toNat) c.bitmap.length
  chars : UniqueNumbers (fun c : CharacterEntry => c.number.toNat) f.characters

/-- A valid font table: numbered fonts are valid, numbers are unique -/
structure FontsOk (t : FontTable) : Prop where
  fonts : ∀ f ∈ t, f.number.toNat ≠ 0 → FontOk f
  numbers : UniqueNumbers (fun f : Font => f.number.toNat) t

/-- bytes of a bitmap of `n` pixels of a graphic type -/
def BitmapBytes : ColorScheme → Nat → Nat → Prop
  | .monochrome1Bit, n, bytes => BytesFor n bytes
  | .monochrome8Bit, n, bytes => bytes = n
  | .colorClassic, n, bytes => bytes = n
  | .color24Bit, n, bytes => bytes = 3 * n

/-- the transparent color is one the pixels of the graphic type can have -/
def TransparentKind (s : ColorScheme) (c : Color) : Prop :=
  (∃ v, c = .legacy v ∧ s ≠ .color24Bit) ∨ (∃ r g b, c = .rgb r g b ∧ s = .color24Bit)

/-- A numbered graphic which is valid on a sign of `w × h` pixels -/
structure GraphicOk (w h : Nat) (g : Graphic) : Prop where
  height : 1 ≤ g.height.toNat ∧ g.height.toNat ≤ h
  width : 1 ≤ g.width.toNat ∧ g.width.toNat ≤ w
  bitmap : BitmapBytes g.gtype (g.width.toNat * g.height.toNat) g.bitmap.length
  transparent : ∀ c, g.transparentColor = some c → TransparentKind g.gtype c

/-- A valid graphic table -/
structure GraphicsOk (w h : Nat) (t : GraphicTable) : Prop where
  graphics : ∀ g ∈ t, g.number.toNat ≠ 0 → GraphicOk w h g
  numbers : UniqueNumbers (fun g : Graphic => g.number.toNat) t

end Ntcip.Spec
