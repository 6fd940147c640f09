import Verif.Model.Raster
/-
Model of /repo/examples/bmp/mod.rs, the BMP writer of the examples.  Writing the file itself
(`fs::write`, line 19) is not modelled.  The conversion of the raster to BGR (line 14) only changes
the order of the channels in memory, for rasters of SRgb8 pixels as rendered pages have.
-/
namespace Ntcip.Bmp

/-- result of `u32` arithmetic in the checked profile -/
def chk32 (n : Nat) : Res Nat := if n < 4294967296 then .ok n else .panic .overflow

/-- `write_u32`, examples/bmp/mod.rs:62-67: the bytes pushed.  `val` is a `u32` kept as a `Nat`. -/
def u32 (val : Nat) : List UInt8 :=
  [UInt8.ofNat val, UInt8.ofNat (val >>> 8), UInt8.ofNat (val >>> 16), UInt8.ofNat (val >>> 24)]

/-- `write_u16`, examples/bmp/mod.rs:69-72: the bytes pushed -/
def u16 (val : Nat) : List UInt8 := [UInt8.ofNat val, UInt8.ofNat (val >>> 8)]

/-- `write_header`, examples/bmp/mod.rs:22-30 (checked profile) -/
def header (r : Raster) : Res (List UInt8) := do
  let dataOffset := 14 + 40
  let sz ← chk32 (r.width * r.height)
  let sz3 ← chk32 (sz * 3)
  let size ← chk32 (dataOffset + sz3)
  .ok ([0x42, 0x4D] ++ u32 size ++ u32 0 ++ u32 dataOffset)

/-- `write_info_header`, examples/bmp/mod.rs:32-44 -/
def infoHeader (r : Raster) : List UInt8 :=
  u32 40 ++ u32 r.width ++ u32 r.height ++ u16 1 ++ u16 24 ++ u32 0 ++ u32 0 ++ u32 100 ++ u32 100 ++
    u32 0 ++ u32 0

/-- the pixels of a row, examples/bmp/mod.rs:51-55 -/
def rowPixels (row : List Rgb) : List UInt8 := row.flatMap fun p => [p.2.2, p.2.1, p.1]

/-- `raster.rows(())`, examples/bmp/mod.rs:48: the rows from top to bottom -/
def rows (r : Raster) : List (List Rgb) :=
  (List.range r.height).map fun y => (List.range r.width).map fun x => r.px x y

/-- `write_pixel_data`, examples/bmp/mod.rs:46-60 (checked profile) -/
def pixelData (r : Raster) : Res (List UInt8) := do
  let w3 ← chk32 (3 * r.width)
  let padding := (4 - w3 % 4) % 4
  .ok ((rows r).reverse.flatMap fun row => rowPixels row ++ List.replicate padding 0)

/-- `write`, examples/bmp/mod.rs:9-20: the bytes of the file -/
def write (r : Raster) : Res (List UInt8) := do
  let h ← header r
  let p ← pixelData r
  .ok (h ++ infoHeader r ++ p)

end Ntcip.Bmp
