import Verif.Model.Oer
import Verif.Model.Raster
/-
Model of /repo/src/dms/font/mod.rs and of the fixed-capacity strings used for names.
-/
namespace Ntcip

/-- Cut of a string to at most `n` bytes at a character boundary, as done by
`FStr::<64>::from_str_lossy` -/
def truncBytes (n : Nat) : Str → Str
  | [] => []
  | c :: cs => if c.utf8Size ≤ n then c :: truncBytes (n - c.utf8Size) cs else []

/-- Content of `FStr::<64>::from_str_lossy(s, b'\0')` as seen through
`slice_to_terminator('\0')` (font/tfon.rs:40, 70; font/mod.rs:324) -/
def fstr64 (s : Str) : Str := (truncBytes 64 s).takeWhile (· ≠ Char.ofNat 0)

/-- `char::from_u32` -/
def charFromU32 (n : Nat) : Option Char :=
  if n < 0xD800 ∨ (0xDFFF < n ∧ n < 0x110000) then some (Char.ofNat n) else none

/-- Font errors; font/mod.rs:18-38 -/
inductive FontError where
  | invalidNumber
  | duplicateNumber (n : UInt8)
  | invalidChar (c : Char)
  | duplicateChar (c : Char)
  | invalidHeight
  | invalidCharHeight
  deriving DecidableEq, Repr

/-- `CharacterEntry`; font/mod.rs:43-54 -/
structure CharacterEntry where
  number : UInt16
  width : UInt8
  bitmap : List UInt8
  deriving DecidableEq, Repr

/-- `CharacterEntry::default()` (derived); font/mod.rs:46 -/
def CharacterEntry.default : CharacterEntry := ⟨0, 0, []⟩

/-- `Font<C>`; font/mod.rs:56-71.  `C` is the length of `characters`.  `name` is the content
of the `FStr<64>` up to its NUL terminator. -/
structure Font where
  number : UInt8
  name : Str
  height : UInt8
  charSpacing : UInt8
  lineSpacing : UInt8
  characters : List CharacterEntry
  deriving DecidableEq, Repr

/-- `FStr::<64>::default()` (font/mod.rs:149), which the `fstr` crate fills with spaces; there is no NUL in it.  No theorem
depends on which string it is. -/
def defaultName : Str := List.replicate 64 ' '

/-- `Font::<C>::default()`; font/mod.rs:142-156 -/
def Font.default (C : Nat) : Font := ⟨0, defaultName, 0, 0, 0, List.replicate C .default⟩

/-- `usize::div_ceil` -/
def divCeil (a b : Nat) : Nat := if a % b = 0 then a / b else a / b + 1

namespace CharacterEntry

/-- `CharacterEntry::is_valid`; font/mod.rs:83-89 -/
def isValid (c : CharacterEntry) (height : UInt8) : Bool :=
  c.number == 0 || c.bitmap.length == divCeil (c.width.toNat * height.toNat) 8

/-- bit test `(b >> k) & 1 != 0` -/
def bitAt (b : UInt8) (k : Nat) : Bool := b.toNat.testBit k

/-- `CharacterEntry::is_pixel_lit`; font/mod.rs:91-103 (`pos & 0b111` is `pos % 8`) -/
def isPixelLit (c : CharacterEntry) (row col : Nat) : Bool :=
  if col < c.width.toNat then
    let pos := row * c.width.toNat + col
    match c.bitmap[pos / 8]? with
    | some b => bitAt b (7 - pos % 8)
    | none => false
  else false

/-- Inner loop `for bi in 0..8` of `render_char`, from bit `bi` on (`n = 8 - bi` bits to go);
font/mod.rs:125-137.  Returns the raster and `(xx, yy)`. -/
def renderBits (width height x y : Nat) (cf : Rgb) (b : UInt8) :
    Nat → Raster → Nat → Nat → Res (Raster × Nat × Nat)
  | 0, r, xx, yy => .ok (r, xx, yy)
  | n + 1, r, xx, yy => do
    let r ← if bitAt b n then r.setPx (x + xx) (y + yy) cf else pure r
    if xx + 1 ≥ width then
      if yy + 1 ≥ height then pure (r, 0, yy + 1)
      else renderBits width height x y cf b n r 0 (yy + 1)
    else renderBits width height x y cf b n r (xx + 1) yy

/-- Outer loop `for by in &self.bitmap` of `render_char`; font/mod.rs:124-138 -/
def renderBytes (width height x y : Nat) (cf : Rgb) :
    List UInt8 → Raster → Nat → Nat → Res Raster
  | [], r, _, _ => .ok r
  | b :: bs, r, xx, yy => do
    let (r, xx, yy) ← renderBits width height x y cf b 8 r xx yy
    renderBytes width height x y cf bs r xx yy

/-- `CharacterEntry::render_char`; font/mod.rs:105-139.  The position is never negative in the
crate (it is computed from `u16` values), so naturals stand for `i32`. -/
def renderChar (c : CharacterEntry) (page : Raster) (x y height : Nat) (cf : Rgb) : Res Raster :=
  renderBytes c.width.toNat height x y cf c.bitmap page 0 0

end CharacterEntry

namespace Font

/-- `Font::validate_char_numbers`; font/mod.rs:159-170.  `char::from_u32(num).unwrap()` panics
for surrogates. -/
def validateCharNumbers : List CharacterEntry → Out FontError Unit
  | [] => .ok ()
  | c :: rest =>
    if c.number > 0 ∧ rest.any (fun d => d.number == c.number) then
      match charFromU32 c.number.toNat with
      | some ch => .err (.duplicateChar ch)
      | none => .panic .unwrap
    else validateCharNumbers rest

/-- `Font::validate`; font/mod.rs:172-184 -/
def validate (f : Font) : Out FontError Unit :=
  if f.number < 1 then .err .invalidNumber
  else if f.height < 1 then .err .invalidHeight
  else if !f.characters.all (fun c => c.isValid f.height) then .err .invalidCharHeight
  else validateCharNumbers f.characters

/-- OER of one character in `version_id`; font/mod.rs:196-200 -/
def charOer (ch : CharacterEntry) : List UInt8 :=
  if ch.number > 0 then Oer.u16 ch.number ++ Oer.u8 ch.width ++ Oer.octetString ch.bitmap
  else []

/-- OER of FontInformation; font/mod.rs:188-202 -/
def oer (f : Font) : List UInt8 :=
  Oer.u8 f.number ++ Oer.u8 f.height ++ Oer.u8 f.charSpacing ++ Oer.u8 f.lineSpacing ++
  Oer.uint (UInt32.ofNat (f.characters.filter (fun c => c.number > 0)).length) ++
  f.characters.flatMap charOer

/-- `Font::version_id`; font/mod.rs:186-204 -/
def versionId (f : Font) : UInt16 := Crc.fromBe (Crc.checksum f.oer)

/-- `Font::width`; font/mod.rs:206-215 -/
def width (f : Font) : UInt8 :=
  let w := match f.characters with
    | [] => 0
    | c :: _ => c.width
  if f.characters.all (fun c => c.width == w) then w else 0

/-- `Font::character`; font/mod.rs:217-225 -/
def character (f : Font) (ch : Char) : Option CharacterEntry :=
  if ch.toNat < 65536 then f.characters.find? (fun c => c.number.toNat == ch.toNat) else none

/-- Loop of `text_width`; font/mod.rs:234-240.  `width` is a `u16` (checked profile). -/
def textWidthLoop (f : Font) (cs : Nat) : Nat → Str → Out FontError Nat
  | w, [] => .ok w
  | w, ch :: rest => match f.character ch with
    | none => .err (.invalidChar ch)
    | some c => do
      let w ← .ofRes (if w > 0 then chk16 (w + cs) else .ok w)
      let w ← .ofRes (chk16 (w + c.width.toNat))
      textWidthLoop f cs w rest

/-- `Font::text_width`; font/mod.rs:227-242 -/
def textWidth (f : Font) (text : Str) (cs : Option UInt16) : Out FontError Nat :=
  let cs := match cs with
    | some cs => cs.toNat
    | none => f.charSpacing.toNat
  textWidthLoop f cs 0 text

/-- Loop of `render_text`; font/mod.rs:268-275 -/
def renderTextLoop (f : Font) (x y cs : Nat) (cf : Rgb) :
    Raster → Nat → Str → Out FontError Raster
  | page, _, [] => .ok page
  | page, xx, ch :: rest => match f.character ch with
    | none => .err (.invalidChar ch)
    | some c => do
      let xx := if xx > 0 then xx + cs else xx
      let page ← .ofRes (c.renderChar page (x + xx) y f.height.toNat cf)
      renderTextLoop f x y cs cf page (xx + c.width.toNat) rest

/-- `Font::render_text`; font/mod.rs:244-277 -/
def renderText (f : Font) (page : Raster) (text : Str) (x y cs : Nat) (cf : Rgb) :
    Out FontError Raster :=
  renderTextLoop f x y cs cf page 0 text

end Font

/-- `FontTable<C, F>`; font/mod.rs:73-80.  `F` is the length of the list. -/
abbrev FontTable := List Font

namespace FontTable

/-- `FontTable::<C, F>::default()`; font/mod.rs:280-286 -/
def default (C F : Nat) : FontTable := List.replicate F (Font.default C)

/-- `FontTable::validate_font_numbers`; font/mod.rs:299-308 -/
def validateFontNumbers : FontTable → Out FontError Unit
  | [] => .ok ()
  | f :: rest =>
    if f.number > 0 ∧ rest.any (fun g => g.number == f.number) then
      .err (.duplicateNumber f.number)
    else validateFontNumbers rest

/-- The `for font in &self.fonts` loop of `FontTable::validate`; font/mod.rs:291-295 -/
def validateFonts : FontTable → Out FontError Unit
  | [] => .ok ()
  | f :: rest => do
    if f.number > 0 then f.validate
    validateFonts rest

/-- `FontTable::validate`; font/mod.rs:289-297 -/
def validate (t : FontTable) : Out FontError Unit := do
  validateFonts t
  validateFontNumbers t

/-- `FontTable::font`; font/mod.rs:310-313 -/
def font (t : FontTable) (fnum : UInt8) : Option Font := t.find? (fun f => f.number == fnum)

/-- Assignment through `FontTable::font_mut(fnum)`: the first matching entry is replaced by `g`;
`none` when `font_mut` gives `None`; font/mod.rs:315-318 -/
def setFont : FontTable → UInt8 → Font → Option FontTable
  | [], _, _ => none
  | f :: rest, fnum, g =>
    if f.number == fnum then some (g :: rest) else (setFont rest fnum g).map (f :: ·)

/-- `FontTable::font_by_name`; font/mod.rs:320-325 -/
def fontByName (t : FontTable) (name : Str) : Option Font := t.find? (fun f => f.name == name)

end FontTable
end Ntcip
