import Verif.Model.Font
/-
Model of /repo/src/dms/font/tfon.rs, on top of the `tfon` crate (not part of the repository).
The text layer of that crate is not modelled: `Parser::new(buf)` is the list of properties it
yields, `tfon::write` is the list of properties handed to it.
-/
namespace Ntcip.Tfon

/-- `tfon::Bitmap`: `from_bits(height, width, bits)`, `height()`, `width()`, `into_bits()` -/
structure Bitmap where
  height : UInt8
  width : UInt8
  bits : List UInt8
  deriving DecidableEq, Repr

/-- `Bitmap::from_bits` of the `tfon` crate: the number of bytes must be that of the bits -/
def Bitmap.fromBits (height width : UInt8) (bits : List UInt8) : Option Bitmap :=
  if bits.length = divCeil (width.toNat * height.toNat) 8 then some ⟨height, width, bits⟩ else none

/-- `tfon::Prop`; `other` is any property the parser ignores (tfon.rs:57) -/
inductive TProp where
  | fontName (nm : Str)
  | fontNumber (n : UInt8)
  | charSpacing (n : UInt8)
  | lineSpacing (n : UInt8)
  | codePoint (cp : UInt16)
  | bitmap (b : Bitmap)
  | other
  deriving DecidableEq, Repr

/-- Update of one entry of the array `font.characters[row]`, an index panic when out of bounds -/
def updAt (cs : List CharacterEntry) (row : Nat) (f : CharacterEntry → CharacterEntry) :
    Out FontError (List CharacterEntry) :=
  match cs, row with
  | [], _ => .panic .index
  | c :: rest, 0 => .ok (f c :: rest)
  | c :: rest, n + 1 => do
    let r ← updAt rest n f
    pure (c :: r)

/-- One round of the loop in `parse`; tfon.rs:39-58 -/
def parseStep (font : Font) (row : Nat) : TProp → Out FontError (Font × Nat)
  | .fontName nm => .ok ({ font with name := fstr64 nm }, row)
  | .fontNumber n => .ok ({ font with number := n }, row)
  | .charSpacing n => .ok ({ font with charSpacing := n }, row)
  | .lineSpacing n => .ok ({ font with lineSpacing := n }, row)
  | .codePoint cp => do
    let cs ← updAt font.characters row (fun c => { c with number := cp })
    pure ({ font with characters := cs }, row)
  | .bitmap b => do
    let font ←
      if font.height > 0 then
        if b.height ≠ font.height then .err .invalidCharHeight else pure font
      else pure { font with height := b.height }
    let cs ← updAt font.characters row (fun c => { c with width := b.width, bitmap := b.bits })
    pure ({ font with characters := cs }, row + 1)
  | .other => .ok (font, row)

/-- Loop of `parse`; tfon.rs:38-59 -/
def parseLoop (font : Font) (row : Nat) : List TProp → Out FontError Font
  | [] => .ok font
  | p :: rest => do
    let (font, row) ← parseStep font row p
    parseLoop font row rest

/-- `tfon::parse::<C>`; tfon.rs:34-61 -/
def parse (C : Nat) (props : List TProp) : Out FontError Font := parseLoop (Font.default C) 0 props

/-- Properties of one character; tfon.rs:75-83 -/
def charProps (height : UInt8) (ch : CharacterEntry) : List TProp :=
  if ch.number > 0 then
    match Bitmap.fromBits height ch.width ch.bitmap with
    | some b => [.codePoint ch.number, .bitmap b]
    | none => []
  else []

/-- `tfon::write`; tfon.rs:63-86 (I/O errors are not modelled) -/
def write (font : Font) : Out FontError (List TProp) := do
  font.validate
  pure ([.fontName font.name, .fontNumber font.number, .charSpacing font.charSpacing,
         .lineSpacing font.lineSpacing] ++ font.characters.flatMap (charProps font.height))

end Ntcip.Tfon
