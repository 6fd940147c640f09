import Verif.Model.Oer
import Verif.Model.Raster
import Verif.Model.Font
/-
Model of /repo/src/dms/graphic.rs
-/
namespace Ntcip

/-- Graphic errors; graphic.rs:20-43 -/
inductive GraphicError where
  | invalidNumber | duplicateNumber | invalidHeight | invalidWidth | invalidBitmap
  | invalidTransparentColor | tooBig
  deriving DecidableEq, Repr

/-- `Graphic`; graphic.rs:45-62.  `name` is the content of the `FStr<64>`. -/
structure Graphic where
  number : UInt8
  name : Str
  height : UInt8
  width : UInt16
  gtype : ColorScheme
  transparentColor : Option Color
  bitmap : List UInt8
  deriving DecidableEq, Repr

/-- `Graphic::default()` (derived); graphic.rs:46 -/
def Graphic.default : Graphic := ⟨0, defaultName, 0, 0, .monochrome1Bit, none, []⟩

namespace Graphic

/-- `Graphic::is_bitmap_valid`; graphic.rs:72-81 -/
def isBitmapValid (g : Graphic) : Bool :=
  let pix := g.height.toNat * g.width.toNat
  let len := match g.gtype with
    | .monochrome1Bit => divCeil pix 8
    | .color24Bit => pix * 3
    | _ => pix
  len == g.bitmap.length

/-- `Graphic::is_transparent_color_valid`; graphic.rs:83-93 -/
def isTransparentColorValid (g : Graphic) : Bool :=
  match g.gtype, g.transparentColor with
  | _, none => true
  | .monochrome1Bit, some (.legacy _) => true
  | .monochrome8Bit, some (.legacy _) => true
  | .colorClassic, some (.legacy _) => true
  | .color24Bit, some (.rgb _ _ _) => true
  | _, _ => false

/-- `Graphic::validate`; graphic.rs:95-114 -/
def validate (g : Graphic) (width height : UInt16) : Except GraphicError Unit :=
  if g.number < 1 then .error .invalidNumber
  else if g.height < 1 ∨ g.height.toUInt16 > height then .error .invalidHeight
  else if g.width < 1 ∨ g.width > width then .error .invalidWidth
  else if !g.isBitmapValid then .error .invalidBitmap
  else if !g.isTransparentColorValid then .error .invalidTransparentColor
  else .ok ()

/-- OER of GraphicInfoList; graphic.rs:118-146 -/
def oer (g : Graphic) : List UInt8 :=
  Oer.u8 g.number ++ Oer.u16 g.height.toUInt16 ++ Oer.u16 g.width ++ Oer.u8 g.gtype.toU8 ++
  Oer.u8 (match g.transparentColor with
    | some _ => 1
    | none => 0) ++
  (match g.transparentColor with
    | some (.rgb r g b) => Oer.u8 r ++ Oer.u8 g ++ Oer.u8 b
    | some (.legacy c) => Oer.u8 c ++ Oer.u8 0 ++ Oer.u8 0
    | none => Oer.u8 0 ++ Oer.u8 0 ++ Oer.u8 0) ++
  Oer.octetStr g.bitmap

/-- `Graphic::version_id`; graphic.rs:116-148 -/
def versionId (g : Graphic) : UInt16 := Crc.fromBe (Crc.checksum g.oer)

/-- `self.bitmap[i]` -/
def byteAt (g : Graphic) (i : Nat) : Res UInt8 :=
  match g.bitmap[i]? with
  | some b => .ok b
  | none => .panic .index

/-- `Graphic::pixel_1`; graphic.rs:217-235 (`offset & 7` is `offset % 8`) -/
def pixel1 (g : Graphic) (x y : Nat) (ctx : ColorCtx) : Res (Option Rgb) := do
  let offset := y * g.width.toNat + x
  let b ← g.byteAt (offset / 8)
  let lit := CharacterEntry.bitAt b (7 - offset % 8)
  if lit = false ∧ g.transparentColor = some (.legacy 0) then pure none
  else if lit = true ∧ g.transparentColor = some (.legacy 1) then pure none
  else if lit = false then pure (ctx.rgb ctx.bgCurrent)
  else pure (ctx.rgb ctx.fgCurrent)

/-- `Graphic::pixel_8`; graphic.rs:237-253 -/
def pixel8 (g : Graphic) (x y : Nat) (ctx : ColorCtx) : Res (Option Rgb) := do
  let v ← g.byteAt (y * g.width.toNat + x)
  if g.transparentColor = some (.legacy v) then pure none
  else pure (ctx.rgb (.legacy v))

/-- `Graphic::pixel_24`; graphic.rs:255-270 -/
def pixel24 (g : Graphic) (x y : Nat) : Res (Option Rgb) := do
  let offset := 3 * (y * g.width.toNat + x)
  let blue ← g.byteAt offset
  let green ← g.byteAt (offset + 1)
  let red ← g.byteAt (offset + 2)
  if g.transparentColor = some (.rgb red green blue) then pure none
  else pure (some (red, green, blue))

/-- `Graphic::pixel_fn`; graphic.rs:206-215 -/
def pixelFn (g : Graphic) (x y : Nat) (ctx : ColorCtx) : Res (Option Rgb) :=
  match g.gtype with
  | .monochrome1Bit => g.pixel1 x y ctx
  | .monochrome8Bit => g.pixel8 x y ctx
  | .colorClassic => g.pixel8 x y ctx
  | .color24Bit => g.pixel24 x y

/-- The pixel loops of `to_raster`; graphic.rs:167-173 -/
def toRasterLoop (g : Graphic) (ctx : ColorCtx) : List (Nat × Nat) → RasterA → Res RasterA
  | [], r => .ok r
  | (x, y) :: rest, r => do
    let clr ← g.pixelFn x y ctx
    let r ← match clr with
      | some c => r.setPx x y c
      | none => pure r
    toRasterLoop g ctx rest r

/-- the color context of `to_raster`; graphic.rs:152-162 -/
def toRasterCtx (g : Graphic) : ColorCtx :=
  let fg := match g.gtype with
    | .monochrome1Bit => ColorClassic.white.rgb
    | .monochrome8Bit => ColorClassic.white.rgb
    | _ => ColorClassic.amber.rgb
  ColorCtx.new .color24Bit fg ColorClassic.black.rgb

/-- `Graphic::to_raster`; graphic.rs:150-175 -/
def toRaster (g : Graphic) : Res RasterA :=
  toRasterLoop g g.toRasterCtx (gridPoints g.width.toNat g.height.toNat)
    ⟨g.width.toNat, g.height.toNat, fun _ _ => none⟩

/-- The pixel loops of `render_graphic`; graphic.rs:196-202 (`x`, `y` 0-based) -/
def renderLoop (g : Graphic) (ctx : ColorCtx) (x y : Nat) :
    List (Nat × Nat) → Raster → Res Raster
  | [], r => .ok r
  | (xx, yy) :: rest, r => do
    let clr ← g.pixelFn xx yy ctx
    let r ← match clr with
      | some c => r.setPx (x + xx) (y + yy) c
      | none => pure r
    renderLoop g ctx x y rest r

/-- `Graphic::render_graphic`; graphic.rs:177-204.  `x`, `y` start from 1; 0 fails the
`debug_assert`s.  Page sizes fit `i32`: rasters are made from `u16` sizes. -/
def renderGraphic (g : Graphic) (page : Raster) (x y : Nat) (ctx : ColorCtx) :
    Out GraphicError Raster :=
  if x = 0 ∨ y = 0 then .panic .unreachable
  else if x - 1 + g.width.toNat > page.width ∨ y - 1 + g.height.toNat > page.height then
    .err .tooBig
  else .ofRes (renderLoop g ctx (x - 1) (y - 1) (gridPoints g.width.toNat g.height.toNat) page)

end Graphic

/-- `GraphicTable<G>`; graphic.rs:64-69.  `G` is the length of the list. -/
abbrev GraphicTable := List Graphic

namespace GraphicTable

/-- `GraphicTable::<G>::default()`; graphic.rs:273-279 -/
def default (G : Nat) : GraphicTable := List.replicate G .default

/-- `GraphicTable::retain`; graphic.rs:282-289 -/
def retain (t : GraphicTable) (width height : UInt16) : GraphicTable :=
  t.map fun g => if g.width > width ∨ g.height.toUInt16 > height then .default else g

/-- `GraphicTable::validate_graphic_numbers`; graphic.rs:305-314 -/
def validateGraphicNumbers : GraphicTable → Except GraphicError Unit
  | [] => .ok ()
  | g :: rest =>
    if g.number > 0 ∧ rest.any (fun h => h.number == g.number) then .error .duplicateNumber
    else validateGraphicNumbers rest

/-- The loop of `GraphicTable::validate`; graphic.rs:297-301 -/
def validateGraphics (width height : UInt16) : GraphicTable → Except GraphicError Unit
  | [] => .ok ()
  | g :: rest =>
    if g.number > 0 then
      match g.validate width height with
      | .ok () => validateGraphics width height rest
      | .error e => .error e
    else validateGraphics width height rest

/-- `GraphicTable::validate`; graphic.rs:291-303 -/
def validate (t : GraphicTable) (width height : UInt16) : Except GraphicError Unit :=
  match validateGraphics width height t with
  | .ok () => validateGraphicNumbers t
  | .error e => .error e

/-- `GraphicTable::graphic`; graphic.rs:316-319 -/
def graphic (t : GraphicTable) (gnum : UInt8) : Option Graphic :=
  t.find? (fun g => g.number == gnum)

/-- Assignment through `GraphicTable::graphic_mut(gnum)`; graphic.rs:321-324 -/
def setGraphic : GraphicTable → UInt8 → Graphic → Option GraphicTable
  | [], _, _ => none
  | g :: rest, gnum, n =>
    if g.number == gnum then some (n :: rest) else (setGraphic rest gnum n).map (g :: ·)

end GraphicTable
end Ntcip
