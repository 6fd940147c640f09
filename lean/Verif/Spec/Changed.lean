import Verif.Model.Font
import Verif.Model.Graphic
/-
Specification of changed bits of data.
-/
namespace Ntcip.Spec

/-- the bits of a byte, from the lowest to the highest -/
def byteBits (b : UInt8) : List Bool := (List.range 8).map fun k => b.toNat.testBit k

/-- the bits of some bytes, one byte after the other -/
def bytesBits (l : List UInt8) : List Bool := l.flatMap byteBits

/-- bit by bit, whether it is another one -/
def changedBits (l l' : List UInt8) : List Bool := List.zipWith xor (bytesBits l) (bytesBits l')

/-- how many bits are other ones -/
def bitsChanged (l l' : List UInt8) : Nat := (changedBits l l').count true

/-- The characters have the same numbers, widths and sizes, one by one. -/
def SameSlots : List CharacterEntry → List CharacterEntry → Prop
  | c :: cs, c' :: cs' =>
    c.number = c'.number ∧ c.width = c'.width ∧ c.bitmap.length = c'.bitmap.length ∧ SameSlots cs cs'
  | [], [] => True
  | _, _ => False

/-- how many bits of the bitmaps of used characters are other ones -/
def glyphBitsChanged : List CharacterEntry → List CharacterEntry → Nat
  | c :: cs, c' :: cs' => (if c.number = 0 then 0 else bitsChanged c.bitmap c'.bitmap) + glyphBitsChanged cs cs'
  | _, _ => 0

/-- a bound for the size of the data of the characters: their bitmaps, and eight bytes for each -/
def glyphsSize (cs : List CharacterEntry) : Nat := (cs.map fun c => if c.number = 0 then 0 else c.bitmap.length + 8).sum

end Ntcip.Spec
