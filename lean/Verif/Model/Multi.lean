import Verif.Model.Basic
/-
Model of /repo/src/dms/multi.rs: MULTI values, colors, rectangles, display,
parsing, tokenizing, normalize / is_blank / join_text / split / text_spans.
-/
namespace Ntcip

/-! ### types -/

/-- MULTI tag; multi.rs:19-88 -/
inductive Tag where
  | cb | cf | fl | fo | g | hc | jl | jp | ms | mv | nl | np | pt | sc
  | f1 | f2 | f3 | f4 | f5 | f6 | f7 | f8 | f9 | f10 | f11 | f12 | f13
  | tr | cr | pb
  deriving DecidableEq, Repr

/-- Classic colors; multi.rs:90-103 -/
inductive ColorClassic where
  | black | red | yellow | green | cyan | blue | magenta | white | orange | amber
  deriving DecidableEq, Repr

/-- Color scheme; multi.rs:105-117 -/
inductive ColorScheme where
  | monochrome1Bit | monochrome8Bit | colorClassic | color24Bit
  deriving DecidableEq, Repr, Inhabited

/-- `ColorScheme as u8` (first discriminant is 1); multi.rs:110 -/
def ColorScheme.toU8 : ColorScheme → UInt8
  | .monochrome1Bit => 1
  | .monochrome8Bit => 2
  | .colorClassic => 3
  | .color24Bit => 4

/-- Color value; multi.rs:119-126 -/
inductive Color where
  | legacy (v : UInt8)
  | rgb (r g b : UInt8)
  deriving DecidableEq, Repr

/-- RGB triplet `(u8, u8, u8)` -/
abbrev Rgb := UInt8 × UInt8 × UInt8

/-- Rectangle; multi.rs:143-154 -/
structure Rectangle where
  x : UInt16
  y : UInt16
  width : UInt16
  height : UInt16
  deriving DecidableEq, Repr

/-- Line justification; multi.rs:156-170 -/
inductive JustificationLine where
  | other | left | center | right | full
  deriving DecidableEq, Repr

/-- Page justification; multi.rs:172-184 -/
inductive JustificationPage where
  | other | top | middle | bottom
  deriving DecidableEq, Repr

/-- Flash order; multi.rs:186-193 -/
inductive FlashOrder where
  | onOff | offOn
  deriving DecidableEq, Repr

/-- Moving text mode; multi.rs:195-202 -/
inductive MovingTextMode where
  | circular
  | linear (delay : UInt8)
  deriving DecidableEq, Repr

/-- Moving text direction; multi.rs:204-211 -/
inductive MovingTextDirection where
  | left | right
  deriving DecidableEq, Repr

/-- Parsed MULTI value; multi.rs:213-322 -/
inductive Value where
  | colorBackground (c : Option Color)
  | colorForeground (c : Option Color)
  | colorRectangle (r : Rectangle) (c : Color)
  | field (id : UInt8) (width : Option UInt8)
  | flash (o : FlashOrder) (a b : Option UInt8)
  | flashEnd
  | font (f : Option (UInt8 × Option UInt16))
  | graphic (num : UInt8) (pos : Option (UInt16 × UInt16 × Option UInt16))
  | hexadecimalCharacter (c : UInt16)
  | justificationLine (j : Option JustificationLine)
  | justificationPage (j : Option JustificationPage)
  | manufacturerSpecific (id : UInt32) (s : Option Str)
  | manufacturerSpecificEnd (id : UInt32) (s : Option Str)
  | movingText (m : MovingTextMode) (d : MovingTextDirection) (width : UInt16) (s r : UInt8) (t : Str)
  | newLine (ls : Option UInt8)
  | newPage
  | pageBackground (c : Option Color)
  | pageTime (on off : Option UInt8)
  | spacingCharacter (s : UInt8)
  | spacingCharacterEnd
  | text (t : Str)
  | textRectangle (r : Rectangle)
  deriving DecidableEq, Repr

/-- Syntax errors; multi.rs:324-369 (those never produced by the crate are kept too) -/
inductive SyntaxError where
  | other (msg : String)
  | unsupportedTag (s : Str)
  | unsupportedTagValue (s : Str)
  | textTooBig
  | fontNotDefined (n : UInt8)
  | characterNotDefined (c : Char)
  | fieldDeviceNotExist
  | fieldDeviceError
  | flashRegionError
  | tagConflict
  | tooManyPages
  | fontVersionID
  | graphicID
  | graphicNotDefined (n : UInt8)
  deriving DecidableEq, Repr

/-! ### colors -/

/-- `ColorClassic::rgb`; multi.rs:388-402 -/
def ColorClassic.rgb : ColorClassic → Rgb
  | .black => (0x00, 0x00, 0x00)
  | .red => (0xFF, 0x00, 0x00)
  | .yellow => (0xFF, 0xFF, 0x00)
  | .green => (0x00, 0xFF, 0x00)
  | .cyan => (0x00, 0xFF, 0xFF)
  | .blue => (0x00, 0x00, 0xFF)
  | .magenta => (0xFF, 0x00, 0xFF)
  | .white => (0xFF, 0xFF, 0xFF)
  | .orange => (0xFF, 0xA5, 0x00)
  | .amber => (0xFF, 0xD0, 0x00)

/-- `u8::from(ColorClassic)`; multi.rs:424-428, discriminants multi.rs:92-103 -/
def ColorClassic.toU8 : ColorClassic → UInt8
  | .black => 0
  | .red => 1
  | .yellow => 2
  | .green => 3
  | .cyan => 4
  | .blue => 5
  | .magenta => 6
  | .white => 7
  | .orange => 8
  | .amber => 9

/-- `ColorClassic::from_u8`; multi.rs:404-421 -/
def ColorClassic.fromU8 (v : UInt8) : Option ColorClassic :=
  if v = ColorClassic.black.toU8 then some .black
  else if v = ColorClassic.red.toU8 then some .red
  else if v = ColorClassic.yellow.toU8 then some .yellow
  else if v = ColorClassic.green.toU8 then some .green
  else if v = ColorClassic.cyan.toU8 then some .cyan
  else if v = ColorClassic.blue.toU8 then some .blue
  else if v = ColorClassic.magenta.toU8 then some .magenta
  else if v = ColorClassic.white.toU8 then some .white
  else if v = ColorClassic.orange.toU8 then some .orange
  else if v = ColorClassic.amber.toU8 then some .amber
  else none

/-- `ColorScheme::from(&str)`; multi.rs:430-444 (the warning is not modelled) -/
def ColorScheme.fromStr (s : Str) : ColorScheme :=
  if s = c!"monochrome1Bit" then .monochrome1Bit
  else if s = c!"monochrome8Bit" then .monochrome8Bit
  else if s = c!"colorClassic" then .colorClassic
  else if s = c!"color24Bit" then .color24Bit
  else .monochrome1Bit

/-- Color context; multi.rs:128-141 -/
structure ColorCtx where
  colorScheme : ColorScheme
  fgDefault : Rgb
  fgCurrent : Color
  bgDefault : Rgb
  bgCurrent : Color
  deriving DecidableEq, Repr

/-- `Color::from((u8, u8, u8))`; multi.rs:455-459 -/
def Color.ofRgb (c : Rgb) : Color := .rgb c.1 c.2.1 c.2.2

/-- `ColorCtx::lerp`; multi.rs:588-595.  The `u8` subtraction and the final `u8` addition never
overflow (`lerp_toNat` below shows the result is exact), so no panic is modelled. -/
def ColorCtx.lerp (bg fg v : UInt8) : UInt8 :=
  let d := max bg fg - min bg fg
  let c := d.toNat * v.toNat
  let r := UInt8.ofNat (((c + 1) + c / 256) / 256)
  min bg fg + r

namespace ColorCtx

/-- `ColorCtx::rgb_classic`; multi.rs:583-586 -/
def rgbClassic (v : UInt8) : Option Rgb := (ColorClassic.fromU8 v).map ColorClassic.rgb

/-- `ColorCtx::new`; multi.rs:472-487 -/
def new (scheme : ColorScheme) (fg bg : Rgb) : ColorCtx :=
  { colorScheme := scheme, fgDefault := fg, fgCurrent := .ofRgb fg,
    bgDefault := bg, bgCurrent := .ofRgb bg }

/-- `ColorCtx::rgb_monochrome_1`; multi.rs:564-571 -/
def rgbMonochrome1 (ctx : ColorCtx) (v : UInt8) : Option Rgb :=
  if v = 0 then some ctx.bgDefault else if v = 1 then some ctx.fgDefault else none

/-- `ColorCtx::rgb_monochrome_8`; multi.rs:573-581 -/
def rgbMonochrome8 (ctx : ColorCtx) (v : UInt8) : Option Rgb :=
  let bg := ctx.bgDefault
  let fg := ctx.fgDefault
  some (lerp bg.1 fg.1 v, lerp bg.2.1 fg.2.1 v, lerp bg.2.2 fg.2.2 v)

/-- `ColorCtx::rgb`; multi.rs:547-562 -/
def rgb (ctx : ColorCtx) (c : Color) : Option Rgb :=
  match ctx.colorScheme, c with
  | .monochrome1Bit, .legacy v => ctx.rgbMonochrome1 v
  | .monochrome1Bit, .rgb _ _ _ => none
  | .monochrome8Bit, .legacy v => ctx.rgbMonochrome8 v
  | .monochrome8Bit, .rgb _ _ _ => none
  | .colorClassic, .legacy v => rgbClassic v
  | .color24Bit, .legacy v => rgbClassic v
  | .color24Bit, .rgb r g b => some (r, g, b)
  | .colorClassic, .rgb _ _ _ => none

end ColorCtx

/-- `Color::rgb`; multi.rs:461-469 -/
def Color.toRgb : Color → Rgb
  | .legacy v => (ColorCtx.rgbClassic v).getD (0, 0, 0)
  | .rgb r g b => (r, g, b)

/-! ### rectangles -/

namespace Rectangle

/-- `Rectangle::default`; multi.rs:604-608 -/
def default : Rectangle := ⟨1, 1, 0, 0⟩

/-- `u16::saturating_sub` -/
def satSub (a b : UInt16) : UInt16 := if b ≤ a then a - b else 0

/-- `Rectangle::extend_width_height`; multi.rs:621-634 -/
def extendWidthHeight (r full : Rectangle) : Rectangle :=
  let width := if r.width > 0 then r.width else satSub full.width (satSub r.x 1)
  let height := if r.height > 0 then r.height else satSub full.height (satSub r.y 1)
  ⟨r.x, r.y, width, height⟩

/-- `Rectangle::intersection`; multi.rs:636-649 -/
def intersection (p : Profile) (a b : Rectangle) : Res Rectangle := do
  let left := max a.x b.x
  let ar ← addU16 p a.x a.width
  let br ← addU16 p b.x b.width
  let right := min ar br
  let top := max a.y b.y
  let ab ← addU16 p a.y a.height
  let bb ← addU16 p b.y b.height
  let bottom := min ab bb
  if right > left ∧ bottom > top then
    pure ⟨left, top, right - left, bottom - top⟩
  else
    pure default

/-- `Rectangle::contains`; multi.rs:651-658.  `&&` is lazy, so are the additions. -/
def contains (p : Profile) (a b : Rectangle) : Res Bool :=
  if b.x ≥ a.x then do
    let br ← addU16 p b.x b.width
    let ar ← addU16 p a.x a.width
    if br ≤ ar then
      if b.y ≥ a.y then do
        let bb ← addU16 p b.y b.height
        let ab ← addU16 p a.y a.height
        pure (decide (bb ≤ ab))
      else pure false
    else pure false
  else pure false

end Rectangle

/-! ### display -/

/-- `JustificationLine as u8`; multi.rs:158-170, 661-665 -/
def JustificationLine.toNat : JustificationLine → Nat
  | .other => 1 | .left => 2 | .center => 3 | .right => 4 | .full => 5

/-- `JustificationPage as u8`; multi.rs:174-184, 682-686 -/
def JustificationPage.toNat : JustificationPage → Nat
  | .other => 1 | .top => 2 | .middle => 3 | .bottom => 4

/-- `Display for Color`; multi.rs:446-453 -/
def Color.display : Color → Str
  | .legacy v => dec v.toNat
  | .rgb r g b => dec r.toNat ++ c!"," ++ dec g.toNat ++ c!"," ++ dec b.toNat

/-- `Display for Rectangle`; multi.rs:598-602 -/
def Rectangle.display (r : Rectangle) : Str :=
  dec r.x.toNat ++ c!"," ++ dec r.y.toNat ++ c!"," ++ dec r.width.toNat ++ c!"," ++ dec r.height.toNat

/-- `Display for MovingTextMode`; multi.rs:702-709 -/
def MovingTextMode.display : MovingTextMode → Str
  | .circular => c!"c"
  | .linear x => c!"l" ++ dec x.toNat

/-- `Display for MovingTextDirection`; multi.rs:711-718 -/
def MovingTextDirection.display : MovingTextDirection → Str
  | .left => c!"l"
  | .right => c!"r"

/-- `str::replace(ch, "chch")` for a single character `ch` -/
def doubleChar (ch : Char) (t : Str) : Str := t.flatMap fun c => if c = ch then [c, c] else [c]

/-- `Display for Value`; multi.rs:720-796 -/
def Value.display : Value → Str
  | .colorBackground none => c!"[cb]"
  | .colorBackground (some c) => c!"[cb" ++ c.display ++ c!"]"
  | .colorForeground none => c!"[cf]"
  | .colorForeground (some c) => c!"[cf" ++ c.display ++ c!"]"
  | .colorRectangle r c => c!"[cr" ++ r.display ++ c!"," ++ c.display ++ c!"]"
  | .field i (some w) => c!"[f" ++ dec i.toNat ++ c!"," ++ dec w.toNat ++ c!"]"
  | .field i none => c!"[f" ++ dec i.toNat ++ c!"]"
  | .flash .onOff (some a) (some b) => c!"[flt" ++ dec a.toNat ++ c!"o" ++ dec b.toNat ++ c!"]"
  | .flash .onOff (some a) none => c!"[flt" ++ dec a.toNat ++ c!"o]"
  | .flash .onOff none (some b) => c!"[flto" ++ dec b.toNat ++ c!"]"
  | .flash .onOff none none => c!"[flto]"
  | .flash .offOn (some a) (some b) => c!"[flo" ++ dec a.toNat ++ c!"t" ++ dec b.toNat ++ c!"]"
  | .flash .offOn (some a) none => c!"[flo" ++ dec a.toNat ++ c!"t]"
  | .flash .offOn none (some b) => c!"[flot" ++ dec b.toNat ++ c!"]"
  | .flash .offOn none none => c!"[flot]"
  | .flashEnd => c!"[/fl]"
  | .font none => c!"[fo]"
  | .font (some (num, none)) => c!"[fo" ++ dec num.toNat ++ c!"]"
  | .font (some (num, some c)) => c!"[fo" ++ dec num.toNat ++ c!"," ++ hex04 c.toNat ++ c!"]"
  | .graphic num none => c!"[g" ++ dec num.toNat ++ c!"]"
  | .graphic num (some (x, y, none)) =>
    c!"[g" ++ dec num.toNat ++ c!"," ++ dec x.toNat ++ c!"," ++ dec y.toNat ++ c!"]"
  | .graphic num (some (x, y, some c)) =>
    c!"[g" ++ dec num.toNat ++ c!"," ++ dec x.toNat ++ c!"," ++ dec y.toNat ++ c!"," ++
      hex04 c.toNat ++ c!"]"
  | .hexadecimalCharacter c => c!"[hc" ++ dec c.toNat ++ c!"]"
  | .justificationLine (some j) => c!"[jl" ++ dec j.toNat ++ c!"]"
  | .justificationLine none => c!"[jl]"
  | .justificationPage (some j) => c!"[jp" ++ dec j.toNat ++ c!"]"
  | .justificationPage none => c!"[jp]"
  | .manufacturerSpecific i (some s) => c!"[ms" ++ dec i.toNat ++ c!"," ++ s ++ c!"]"
  | .manufacturerSpecific i none => c!"[ms" ++ dec i.toNat ++ c!"]"
  | .manufacturerSpecificEnd i (some s) => c!"[/ms" ++ dec i.toNat ++ c!"," ++ s ++ c!"]"
  | .manufacturerSpecificEnd i none => c!"[/ms" ++ dec i.toNat ++ c!"]"
  | .movingText mode dir width s r t =>
    c!"[mv" ++ mode.display ++ dir.display ++ dec width.toNat ++ c!"," ++ dec s.toNat ++ c!"," ++
      dec r.toNat ++ c!"," ++ t ++ c!"]"
  | .newLine (some x) => c!"[nl" ++ dec x.toNat ++ c!"]"
  | .newLine none => c!"[nl]"
  | .newPage => c!"[np]"
  | .pageBackground (some c) => c!"[pb" ++ c.display ++ c!"]"
  | .pageBackground none => c!"[pb]"
  | .pageTime (some x) (some y) => c!"[pt" ++ dec x.toNat ++ c!"o" ++ dec y.toNat ++ c!"]"
  | .pageTime (some x) none => c!"[pt" ++ dec x.toNat ++ c!"o]"
  | .pageTime none (some y) => c!"[pto" ++ dec y.toNat ++ c!"]"
  | .pageTime none none => c!"[pto]"
  | .spacingCharacter s => c!"[sc" ++ dec s.toNat ++ c!"]"
  | .spacingCharacterEnd => c!"[/sc]"
  | .text t => doubleChar ']' (doubleChar '[' t)
  | .textRectangle r => c!"[tr" ++ r.display ++ c!"]"

/-- `Value::tag`; multi.rs:829-869 -/
def Value.tag : Value → Option Tag
  | .colorBackground _ => some .cb
  | .colorForeground _ => some .cf
  | .colorRectangle _ _ => some .cr
  | .field i _ =>
    if i = 1 then some .f1 else if i = 2 then some .f2 else if i = 3 then some .f3
    else if i = 4 then some .f4 else if i = 5 then some .f5 else if i = 6 then some .f6
    else if i = 7 then some .f7 else if i = 8 then some .f8 else if i = 9 then some .f9
    else if i = 10 then some .f10 else if i = 11 then some .f11 else if i = 12 then some .f12
    else if i = 13 then some .f13 else none
  | .flash _ _ _ => some .fl
  | .flashEnd => some .fl
  | .font _ => some .fo
  | .graphic _ _ => some .g
  | .hexadecimalCharacter _ => some .hc
  | .justificationLine _ => some .jl
  | .justificationPage _ => some .jp
  | .manufacturerSpecific _ _ => some .ms
  | .manufacturerSpecificEnd _ _ => some .ms
  | .movingText _ _ _ _ _ _ => some .mv
  | .newLine _ => some .nl
  | .newPage => some .np
  | .pageBackground _ => some .pb
  | .pageTime _ _ => some .pt
  | .spacingCharacter _ => some .sc
  | .spacingCharacterEnd => some .sc
  | .text _ => none
  | .textRectangle _ => some .tr

/-- `Value::is_blank`; multi.rs:871-884.  `txt.trim() == ""` holds exactly when all
characters are white space. -/
def Value.isBlank : Value → Bool
  | .colorRectangle _ _ => false
  | .field _ _ => false
  | .graphic _ _ => false
  | .hexadecimalCharacter _ => false
  | .manufacturerSpecific _ _ => false
  | .manufacturerSpecificEnd _ _ => false
  | .movingText _ _ _ _ _ _ => false
  | .text t => t.all isWhitespace
  | _ => true

/-! ### setting colors -/

namespace ColorCtx

/-- `ColorCtx::set_foreground`; multi.rs:489-503.  `v` is only used in the error. -/
def setForeground (ctx : ColorCtx) (c : Option Color) (v : Value) : Except SyntaxError ColorCtx :=
  match c with
  | some c => match ctx.rgb c with
    | some _ => .ok { ctx with fgCurrent := c }
    | none => .error (.unsupportedTagValue v.display)
  | none => .ok { ctx with fgCurrent := .ofRgb ctx.fgDefault }

/-- `ColorCtx::foreground_rgb`; multi.rs:510-516 -/
def foregroundRgb (ctx : ColorCtx) : Rgb :=
  match ctx.rgb ctx.fgCurrent with
  | some rgb => rgb
  | none => ctx.fgDefault

/-- `ColorCtx::set_background`; multi.rs:518-532 -/
def setBackground (ctx : ColorCtx) (c : Option Color) (v : Value) : Except SyntaxError ColorCtx :=
  match c with
  | some c => match ctx.rgb c with
    | some _ => .ok { ctx with bgCurrent := c }
    | none => .error (.unsupportedTagValue v.display)
  | none => .ok { ctx with bgCurrent := .ofRgb ctx.bgDefault }

/-- `ColorCtx::background_rgb`; multi.rs:539-545 -/
def backgroundRgb (ctx : ColorCtx) : Rgb :=
  match ctx.rgb ctx.bgCurrent with
  | some rgb => rgb
  | none => ctx.bgDefault

end ColorCtx

/-! ### parsing

An iterator of string slices is the list of the slices still to come; `next()` takes the head.
Functions that take `&mut I` return the rest of the list. -/

/-- `parse_color`; multi.rs:905-920 -/
def parseColor (v : List Str) : Option Color :=
  let rgb := v.map parseU8
  match rgb with
  | [some r, some g, some b] => some (.rgb r g b)
  | [some n] => some (.legacy n)
  | _ => none

/-- `parse_rectangle`; multi.rs:922-939; returns the rest of the iterator as well -/
def parseRectangle (v : List Str) : Option Rectangle × List Str :=
  match v with
  | x :: y :: w :: h :: rest =>
    match parseU16 x, parseU16 y, parseU16 w, parseU16 h with
    | some x, some y, some w, some h =>
      if x > 0 ∧ y > 0 then (some ⟨x, y, w, h⟩, rest) else (none, rest)
    | _, _, _, _ => (none, rest)
  | _ => (none, [])

/-- `parse_int::<u8>`; multi.rs:941-953 -/
def parseIntU8 (v : List Str) : Option UInt8 × List Str :=
  match v with
  | s :: rest => (parseU8 s, rest)
  | [] => (none, [])

/-- `parse_int::<u16>`; multi.rs:941-953 -/
def parseIntU16 (v : List Str) : Option UInt16 × List Str :=
  match v with
  | s :: rest => (parseU16 s, rest)
  | [] => (none, [])

/-- `parse_int::<u32>`; multi.rs:941-953 -/
def parseIntU32 (v : List Str) : Option UInt32 × List Str :=
  match v with
  | s :: rest => (parseU32 s, rest)
  | [] => (none, [])

/-- `parse_optional::<u8>`; multi.rs:955-969; outer `none` is `Err` -/
def parseOptional (v : List Str) : Option (Option UInt8) × List Str :=
  match v with
  | [] => (some none, [])
  | s :: rest =>
    if s = [] then (some none, rest)
    else match parseU8 s with
      | some i => (some (some i), rest)
      | none => (none, rest)

/-- `parse_optional_99`; multi.rs:971-988; outer `none` is `Err` -/
def parseOptional99 (v : List Str) : Option (Option UInt8) × List Str :=
  match v with
  | [] => (some none, [])
  | s :: rest =>
    if s = [] then (some none, rest)
    else match parseU8 s with
      | some i => if i ≤ 99 then (some (some i), rest) else (none, rest)
      | none => (none, rest)

/-- `parse_nonzero::<u8>`; multi.rs:990-1005 -/
def parseNonzero (v : List Str) : Option UInt8 × List Str :=
  match v with
  | s :: rest => match parseU8 s with
    | some i => if i ≠ 0 then (some i, rest) else (none, rest)
    | none => (none, rest)
  | [] => (none, [])

/-- `parse_version_id`; multi.rs:1007-1020; outer `none` is `Err` -/
def parseVersionId (v : List Str) : Option (Option UInt16) :=
  match v with
  | s :: _ =>
    if blen s = 4 then
      match parseHex16 s with
      | some i => some (some i)
      | none => none
    else none
  | [] => some none

/-- `parse_color_background`; multi.rs:1022-1034 -/
def parseColorBackground (tag : Str) : Res (Option Value) :=
  if blen tag > 2 then do
    let s ← sliceFrom 2 tag
    match parseU8 s with
    | some n => pure (some (.colorBackground (some (.legacy n))))
    | none => pure none
  else pure (some (.colorBackground none))

/-- `parse_page_background`; multi.rs:1036-1043 -/
def parsePageBackground (tag : Str) : Res (Option Value) :=
  if blen tag > 2 then do
    let s ← sliceFrom 2 tag
    pure ((parseColor (splitAll isComma s)).map fun c => .pageBackground (some c))
  else pure (some (.pageBackground none))

/-- `parse_color_foreground`; multi.rs:1045-1053 -/
def parseColorForeground (tag : Str) : Res (Option Value) :=
  if blen tag > 2 then do
    let s ← sliceFrom 2 tag
    pure ((parseColor (splitAll isComma s)).map fun c => .colorForeground (some c))
  else pure (some (.colorForeground none))

/-- `parse_color_rectangle`; multi.rs:1055-1062 -/
def parseColorRectangle (tag : Str) : Res (Option Value) := do
  let s ← sliceFrom 2 tag
  let (r, vs) := parseRectangle (splitN 7 isComma s)
  match r, parseColor vs with
  | some r, some c => pure (some (.colorRectangle r c))
  | _, _ => pure none

/-- `parse_field`; multi.rs:1064-1071 -/
def parseField (tag : Str) : Res (Option Value) := do
  let s ← sliceFrom 1 tag
  let (i, vs) := parseIntU8 (splitN 2 isComma s)
  let (w, _) := parseOptional vs
  match i, w with
  | some fid, some w => if fid < 14 then pure (some (.field fid w)) else pure none
  | _, _ => pure none

def isO (c : Char) : Bool := c == 'o' || c == 'O'
def isT (c : Char) : Bool := c == 't' || c == 'T'

/-- `parse_flash_on`; multi.rs:1087-1093 -/
def parseFlashOn (v : Str) : Option Value :=
  let (t, vs) := parseOptional99 (splitN 2 isO v)
  match t with
  | none => none
  | some t =>
    let (o, _) := parseOptional99 vs
    match o with
    | none => none
    | some o => some (.flash .onOff t o)

/-- `parse_flash_off`; multi.rs:1095-1101 -/
def parseFlashOff (v : Str) : Option Value :=
  let (o, vs) := parseOptional99 (splitN 2 isT v)
  match o with
  | none => none
  | some o =>
    let (t, _) := parseOptional99 vs
    match t with
    | none => none
    | some t => some (.flash .offOn o t)

/-- `parse_flash_time`; multi.rs:1073-1085 -/
def parseFlashTime (tag : Str) : Res (Option Value) :=
  if blen tag > 2 then do
    let v ← sliceFrom 2 tag
    let h ← sliceTo 1 v
    if h = c!"t" ∨ h = c!"T" then do
      let r ← sliceFrom 1 v
      pure (parseFlashOn r)
    else if h = c!"o" ∨ h = c!"O" then do
      let r ← sliceFrom 1 v
      pure (parseFlashOff r)
    else pure none
  else pure (some (.flash .onOff none none))

/-- `parse_flash_end`; multi.rs:1103-1110 -/
def parseFlashEnd (tag : Str) : Option Value :=
  if blen tag = 3 then some .flashEnd else none

/-- `parse_font`; multi.rs:1112-1123 -/
def parseFont (tag : Str) : Res (Option Value) :=
  if blen tag > 2 then do
    let s ← sliceFrom 2 tag
    let (n, vs) := parseNonzero (splitN 2 isComma s)
    match n, parseVersionId vs with
    | some n, some vid => pure (some (.font (some (n, vid))))
    | _, _ => pure none
  else pure (some (.font none))

/-- `parse_xy`; multi.rs:1152-1161 -/
def parseXY (x y : Str) : Option (UInt16 × UInt16) :=
  match parseU16 x, parseU16 y with
  | some x, some y => if x > 0 ∧ y > 0 then some (x, y) else none
  | _, _ => none

/-- `parse_point`; multi.rs:1140-1150; outer `none` is `Err` -/
def parsePoint (v : List Str) : Option (Option (UInt16 × UInt16)) × List Str :=
  match v with
  | x :: y :: rest => match parseXY x y with
    | some p => (some (some p), rest)
    | none => (none, rest)
  | [_] => (none, [])
  | [] => (some none, [])

/-- `parse_graphic`; multi.rs:1125-1138 -/
def parseGraphic (tag : Str) : Res (Option Value) := do
  let s ← sliceFrom 1 tag
  let (n, vs) := parseNonzero (splitN 4 isComma s)
  let (p, vs) := parsePoint vs
  let vid := parseVersionId vs
  match n, p, vid with
  | some n, some (some (x, y)), some vid => pure (some (.graphic n (some (x, y, vid))))
  | some n, some none, some none => pure (some (.graphic n none))
  | _, _, _ => pure none

/-- `parse_hexadecimal_character`; multi.rs:1163-1169 -/
def parseHexadecimalCharacter (tag : Str) : Res (Option Value) := do
  let s ← sliceFrom 2 tag
  pure ((parseHex16 s).map .hexadecimalCharacter)

/-- `JustificationLine::new`; multi.rs:668-679 -/
def JustificationLine.new (v : Str) : Option JustificationLine :=
  if v = c!"1" then some .other
  else if v = c!"2" then some .left
  else if v = c!"3" then some .center
  else if v = c!"4" then some .right
  else if v = c!"5" then some .full
  else none

/-- `JustificationPage::new`; multi.rs:689-699 -/
def JustificationPage.new (v : Str) : Option JustificationPage :=
  if v = c!"1" then some .other
  else if v = c!"2" then some .top
  else if v = c!"3" then some .middle
  else if v = c!"4" then some .bottom
  else none

/-- `parse_justification_line`; multi.rs:1171-1179 -/
def parseJustificationLine (tag : Str) : Res (Option Value) :=
  if blen tag > 2 then do
    let s ← sliceFrom 2 tag
    pure ((JustificationLine.new s).map fun j => .justificationLine (some j))
  else pure (some (.justificationLine none))

/-- `parse_justification_page`; multi.rs:1181-1189 -/
def parseJustificationPage (tag : Str) : Res (Option Value) :=
  if blen tag > 2 then do
    let s ← sliceFrom 2 tag
    pure ((JustificationPage.new s).map fun j => .justificationPage (some j))
  else pure (some (.justificationPage none))

/-- `parse_manufacturer_specific`; multi.rs:1191-1199 -/
def parseManufacturerSpecific (tag : Str) : Res (Option Value) := do
  let s ← sliceFrom 2 tag
  let (m, vs) := parseIntU32 (splitN 2 isComma s)
  match m, vs.head? with
  | some m, some t => pure (some (.manufacturerSpecific m (some t)))
  | some m, none => pure (some (.manufacturerSpecific m none))
  | none, _ => pure none

/-- `parse_manufacturer_specific_end`; multi.rs:1201-1209 -/
def parseManufacturerSpecificEnd (tag : Str) : Res (Option Value) := do
  let s ← sliceFrom 3 tag
  let (m, vs) := parseIntU32 (splitN 2 isComma s)
  match m, vs.head? with
  | some m, some t => pure (some (.manufacturerSpecificEnd m (some t)))
  | some m, none => pure (some (.manufacturerSpecificEnd m none))
  | none, _ => pure none

/-- `parse_moving_text_dir`; multi.rs:1260-1267 -/
def parseMovingTextDir (d : Option Char) : Option MovingTextDirection :=
  if d = some 'l' ∨ d = some 'L' then some .left
  else if d = some 'r' ∨ d = some 'R' then some .right
  else none

/-- `parse_moving_text_mode`; multi.rs:1239-1258 -/
def parseMovingTextMode (tag : Str) (mode : MovingTextMode) : Res (Option Value) :=
  if tag ≠ [] then do
    let dir := parseMovingTextDir tag.head?
    let s ← sliceFrom 1 tag
    let (width, vs) := parseIntU16 (splitN 4 isComma s)
    let (st, vs) := parseIntU8 vs
    let (r, vs) := parseIntU8 vs
    match dir, width, st, r, vs.head? with
    | some dir, some width, some st, some r, some text =>
      pure (some (.movingText mode dir width st r text))
    | _, _, _, _, _ => pure none
  else pure none

/-- `parse_moving_text_linear`; multi.rs:1225-1237 -/
def parseMovingTextLinear (tag : Str) : Res (Option Value) :=
  if tag ≠ [] then do
    let t ← sliceFrom 1 tag
    let h ← sliceTo 1 tag
    match parseU8 h with
    | some i => parseMovingTextMode t (.linear i)
    | none => parseMovingTextMode tag (.linear 0)
  else pure none

/-- `parse_moving_text`; multi.rs:1211-1223.  `&tag[2..3]` panics when byte 3 is not a
boundary, as `&tag[3..]` did before. -/
def parseMovingText (tag : Str) : Res (Option Value) :=
  if blen tag > 2 then do
    let t ← sliceFrom 3 tag
    let v ← sliceFrom 2 tag
    let h ← sliceTo 1 v
    if h = c!"c" ∨ h = c!"C" then parseMovingTextMode t .circular
    else if h = c!"l" ∨ h = c!"L" then parseMovingTextLinear t
    else pure none
  else pure none

/-- `parse_new_line`; multi.rs:1269-1280 -/
def parseNewLine (tag : Str) : Res (Option Value) :=
  if blen tag = 2 then pure (some (.newLine none))
  else if blen tag = 3 then do
    let s ← sliceFrom 2 tag
    match parseU8 s with
    | some n => pure (some (.newLine (some n)))
    | none => pure none
  else pure none

/-- `parse_new_page`; multi.rs:1282-1288 -/
def parseNewPage (tag : Str) : Option Value :=
  if blen tag = 2 then some .newPage else none

/-- `parse_page_time`; multi.rs:1290-1297 -/
def parsePageTime (tag : Str) : Res (Option Value) := do
  let s ← sliceFrom 2 tag
  let (t, vs) := parseOptional (splitN 2 isO s)
  let (o, _) := parseOptional vs
  match t, o with
  | some t, some o => pure (some (.pageTime t o))
  | _, _ => pure none

/-- `parse_spacing_character`; multi.rs:1299-1306 -/
def parseSpacingCharacter (tag : Str) : Res (Option Value) := do
  let s ← sliceFrom 2 tag
  match (parseIntU8 [s]).1 with
  | some s => if s < 100 then pure (some (.spacingCharacter s)) else pure none
  | none => pure none

/-- `parse_spacing_character_end`; multi.rs:1308-1315 -/
def parseSpacingCharacterEnd (tag : Str) : Option Value :=
  if blen tag = 3 then some .spacingCharacterEnd else none

/-- `parse_text_rectangle`; multi.rs:1317-1321 -/
def parseTextRectangle (tag : Str) : Res (Option Value) := do
  let s ← sliceFrom 2 tag
  pure ((parseRectangle (splitN 4 isComma s)).1.map .textRectangle)

/-- `.ok_or_else(|| SyntaxError::UnsupportedTagValue(tag.into()))`; multi.rs:1359 -/
def orTagValue (tag : Str) (r : Res (Option Value)) : Res (Except SyntaxError Value) :=
  r.map' fun
    | some v => .ok v
    | none => .error (.unsupportedTagValue tag)

/-- `parse_tag`; multi.rs:1323-1360.  The `match` is written as the equivalent chain of
conditions, in the same order. -/
def parseTag (tag : Str) : Res (Except SyntaxError Value) :=
  let t0 := tag[0]?.map asciiLower
  let t1 := tag[1]?.map asciiLower
  let t2 := tag[2]?.map asciiLower
  if t0 = some 'n' ∧ t1 = some 'l' then orTagValue tag (parseNewLine tag)
  else if t0 = some 'n' ∧ t1 = some 'p' then orTagValue tag (.ok (parseNewPage tag))
  else if t0 = some 'f' ∧ t1 = some 'o' then orTagValue tag (parseFont tag)
  else if t0 = some 'j' ∧ t1 = some 'l' then orTagValue tag (parseJustificationLine tag)
  else if t0 = some 'j' ∧ t1 = some 'p' then orTagValue tag (parseJustificationPage tag)
  else if t0 = some 'p' ∧ t1 = some 't' then orTagValue tag (parsePageTime tag)
  else if t0 = some 'p' ∧ t1 = some 'b' then orTagValue tag (parsePageBackground tag)
  else if t0 = some 'c' ∧ t1 = some 'f' then orTagValue tag (parseColorForeground tag)
  else if t0 = some 'c' ∧ t1 = some 'r' then orTagValue tag (parseColorRectangle tag)
  else if t0 = some 't' ∧ t1 = some 'r' then orTagValue tag (parseTextRectangle tag)
  else if t0 = some 'c' ∧ t1 = some 'b' then orTagValue tag (parseColorBackground tag)
  else if t0 = some 's' ∧ t1 = some 'c' then orTagValue tag (parseSpacingCharacter tag)
  else if t0 = some 'h' ∧ t1 = some 'c' then orTagValue tag (parseHexadecimalCharacter tag)
  else if t0 = some 'f' ∧ t1 = some 'l' then orTagValue tag (parseFlashTime tag)
  else if t0 = some 'm' ∧ t1 = some 'v' then orTagValue tag (parseMovingText tag)
  else if t0 = some 'm' ∧ t1 = some 's' then orTagValue tag (parseManufacturerSpecific tag)
  else if t0 = some 'f' ∧ t1 = some 'e' then .ok (.error (.unsupportedTag tag))
  else if t0 = some 'f' then orTagValue tag (parseField tag)
  else if t0 = some 'g' then orTagValue tag (parseGraphic tag)
  else if t0 = some '/' ∧ t1 = some 's' ∧ t2 = some 'c' then
    orTagValue tag (.ok (parseSpacingCharacterEnd tag))
  else if t0 = some '/' ∧ t1 = some 'f' ∧ t2 = some 'l' then
    orTagValue tag (.ok (parseFlashEnd tag))
  else if t0 = some '/' ∧ t1 = some 'm' ∧ t2 = some 's' then
    orTagValue tag (parseManufacturerSpecificEnd tag)
  else .ok (.error (.unsupportedTag tag))

/-- a code point allowed in text: `('\u{1}'..='\u{FF}').contains(&c)`; multi.rs:820 -/
def validChar (c : Char) : Bool := 1 ≤ c.toNat && c.toNat ≤ 0xFF

/-- `Value::try_from(&str)`; multi.rs:810-826 -/
def tryFrom (ms : Str) : Res (Except SyntaxError Value) :=
  if ms = c!"[[" ∨ ms = c!"]]" then .ok (.ok (.text (ms.take 1)))
  else if ms.head? = some '[' ∧ ms.getLast? = some ']' then
    parseTag (ms.drop 1).dropLast
  else if ms.head? = some '[' ∨ ms.head? = some ']' then
    .ok (.error (.unsupportedTag ms))
  else if ms.any fun c => !validChar c then
    .ok (.error (.other "Invalid code point"))
  else .ok (.ok (.text ms))

/-! ### tokenizing -/

/-- The `for (i, c) in ms.char_indices()` loop of `next_slice`; multi.rs:1393-1404.
Gives the length of the slice to chop.  `opn` is `ms.starts_with('[')`.  Offsets are counted in
characters instead of bytes: the loop only compares them with 0 and steps over `]`, one byte long. -/
def scan (opn : Bool) : Nat → Str → Option Nat
  | _, [] => none
  | i, c :: cs =>
    if c = '[' ∧ i > 0 then some i
    else if c = ']' then
      if opn then some (i + 1) else some (max i 1)
    else scan opn (i + 1) cs

/-- `MultiStr::next_slice`; multi.rs:1387-1408: the slice and what remains after it -/
def nextSlice (ms : Str) : Option (Str × Str) :=
  if ms.take 2 = c!"[[" ∨ ms.take 2 = c!"]]" then some (ms.take 2, ms.drop 2)
  else match scan (ms.head? = some '[') 0 ms with
    | some i => some (ms.take i, ms.drop i)
    | none => if ms ≠ [] then some (ms, []) else none

/-- Repeated `next_slice` until `None` (`MultiSplitter`/`MultiStr` iteration, multi.rs:1416-1430).
Each slice is non-empty, so `ms.length` steps are enough. -/
def slicesAux : Nat → Str → List Str
  | 0, _ => []
  | n + 1, ms => match nextSlice ms with
    | some (s, rest) => s :: slicesAux n rest
    | none => []

/-- `multi::split`; multi.rs:1501-1504: all slices of a MULTI string -/
def slices (ms : Str) : List Str := slicesAux ms.length ms

/-- The values a `MultiStr` iterator yields (multi.rs:1411-1422), lazily: each is `tryFrom` of
one slice, evaluated when the iterator gets there. -/
def values (ms : Str) : List (Res (Except SyntaxError Value)) := (slices ms).map tryFrom

/-! ### normalize and friends -/

/-- Local variables of `normalize`; multi.rs:1442-1447 -/
structure NormState where
  norm : Str
  trail : Str
  cf : Option Color
  fo : Option (UInt8 × Option UInt16)
  jl : Option JustificationLine
  jp : Option JustificationPage
  deriving DecidableEq, Repr

def NormState.init : NormState := ⟨[], [], none, none, none, none⟩

/-- The `let same = match v` part of the loop body; multi.rs:1449-1471 -/
def NormState.update (st : NormState) (v : Value) : Bool × NormState :=
  match v with
  | .colorForeground c => (decide (c = st.cf), { st with cf := c })
  | .font f => (decide (f = st.fo), { st with fo := f })
  | .justificationLine j => (decide (j = st.jl), { st with jl := j })
  | .justificationPage j => (decide (j = st.jp), { st with jp := j })
  | _ => (false, st)

/-- Loop body of `normalize`; multi.rs:1448-1482 -/
def NormState.step (st : NormState) (v : Value) : NormState :=
  let (same, st) := st.update v
  if !same then
    if v.isBlank then { st with trail := st.trail ++ v.display }
    else { st with norm := st.norm ++ st.trail ++ v.display, trail := [] }
  else st

/-- Loop of `normalize` over the slices; `.flatten()` skips errors; multi.rs:1448 -/
def normLoop (st : NormState) : List Str → Res NormState
  | [] => .ok st
  | s :: rest => match tryFrom s with
    | .panic p => .panic p
    | .ok (.error _) => normLoop st rest
    | .ok (.ok v) => normLoop (st.step v) rest

/-- `normalize`; multi.rs:1432-1484 -/
def normalize (ms : Str) : Res Str := (normLoop .init (slices ms)).map' (·.norm)

/-- Loop of `is_blank`; `Iterator::all` stops at the first `false`; multi.rs:1490-1493 -/
def isBlankLoop : List Str → Res Bool
  | [] => .ok true
  | s :: rest => match tryFrom s with
    | .panic p => .panic p
    | .ok (.error _) => .ok false
    | .ok (.ok v) => if v.isBlank then isBlankLoop rest else .ok false

/-- `multi::is_blank`; multi.rs:1486-1494 -/
def isBlank (ms : Str) : Res Bool := isBlankLoop (slices ms)

/-- Loop of `text_spans`: `flatten` skips errors, `filter_map` keeps text; multi.rs:1507-1512 -/
def textSpansLoop : List Str → Res (List Str)
  | [] => .ok []
  | s :: rest => match tryFrom s with
    | .panic p => .panic p
    | .ok (.ok (.text t)) => (textSpansLoop rest).map' (t :: ·)
    | .ok _ => textSpansLoop rest

/-- `multi::text_spans`, collected; multi.rs:1506-1512 -/
def textSpans (ms : Str) : Res (List Str) := textSpansLoop (slices ms)

/-- `[String]::join(sep)` -/
def joinStr (sep : Str) : List Str → Str
  | [] => []
  | [a] => a
  | a :: b :: rest => a ++ sep ++ joinStr sep (b :: rest)

/-- `multi::join_text`; multi.rs:1496-1499 -/
def joinText (ms sep : Str) : Res Str := (textSpans ms).map' (joinStr sep)

end Ntcip
