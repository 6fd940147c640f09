import Verif.Model.Bmp
import Verif.Model.Render
import Verif.Model.Sign
import Verif.Model.Tfon
/-
Model of /repo/examples/render.rs, the example program that renders a message and writes its pages as BMP files, and of
/repo/examples/graphic.rs, which writes a graphic as a BMP file.
Files are modelled as pairs of name and contents, in the order they are written; that writing one fails
(`fs::write`, examples/bmp/mod.rs:19) is not modelled.
-/
namespace Ntcip.Example

/-- how the program ends, after the files it has written -/
inductive Ending where
  /-- `Ok(())`, examples/render.rs:45 -/
  | done
  /-- the error of a page (`page?`), examples/render.rs:42 -/
  | error (e : SyntaxError)
  | panic (p : Panic)
  deriving DecidableEq, Repr

/-- `font_table`, examples/render.rs:7-13: a table of one font of 128 characters, of which the slot with number 0 is
assigned.  `props` are the properties read from `F08.tfon`; the text layer of the tfon crate is not modelled. -/
def fontTable (props : List Tfon.TProp) : Res FontTable :=
  match Tfon.parse 128 props with
  | .ok f => match FontTable.setFont (FontTable.default 128 1) 0 f with
    | some t => .ok t
    | none => .panic .unwrap
  | .err _ => .panic .unwrap
  | .panic p => .panic p

/-- the builder of `make_dms`, examples/render.rs:16-31 -/
def builder (fonts : FontTable) : DmsBuilder :=
  ((((DmsBuilder.default 128 1 0).withVmsCfg { VmsCfg.default with
      charHeightPixels := 0, charWidthPixels := 0, signHeightPixels := 28, signWidthPixels := 140 }).withFontDefinition
      fonts).withMultiCfg { MultiCfg.default with
      defaultJustificationLine := .left, defaultJustificationPage := .top, defaultFont := 8,
      colorScheme := .color24Bit })

/-- `make_dms`, examples/render.rs:15-34: with the `unwrap` of what `build` gives -/
def makeDms (p : Profile) (props : List Tfon.TProp) : Res Dms :=
  match fontTable props with
  | .ok t => match (builder t).build p with
    | .ok d => .ok d
    | .err _ => .panic .unwrap
    | .panic q => .panic q
  | .panic q => .panic q

/-- `MULTI`, examples/render.rs:36 -/
def multi : Str :=
  c!"[cf1]LEFT[jl3][cf2]MIDDLE[jl4][cf3]RIGHT[nl][cf4][jl2]THE[cf5][jl3]CENTER[cf6][jl4]LINE[nl][jl3][cf7]THE BOTTOM LINE" ++
  c!"[np][cf8][jp3][jl3]SECOND PAGE" ++
  c!"[np][cr1,1,20,8,255,128,128][cr121,1,20,8,128,255,128][cr1,21,20,8,128,128,255][cr121,21,20,8,128,128,128]" ++
  c!"[pb32,0,64][pt40o10]PAGE 3"

/-- the name of the file of page `i`, examples/render.rs:43 -/
def fileName (i : Nat) : Str := c!"render" ++ dec i ++ c!".bmp"

/-- the loop of `main`, examples/render.rs:41-44, from page `i` on.  `fuel` bounds the number of pages; `Ending.panic
.diverge` tells that there were more. -/
def loop (d : Dms) : Nat → Nat → Pages → List (Str × List UInt8) × Ending
  | 0, _, _ => ([], .panic .diverge)
  | fuel + 1, i, pg =>
    match Pages.next d pg with
    | .panic p => ([], .panic p)
    | .ok (none, _) => ([], .done)
    | .ok (some (.error e), _) => ([], .error e)
    | .ok (some (.ok page), pg) =>
      match Bmp.write page.raster with
      | .panic p => ([], .panic p)
      | .ok bs =>
        let (files, ending) := loop d fuel (i + 1) pg
        ((fileName i, bs) :: files, ending)

/-- `main` after `make_dms`, examples/render.rs:40-45: for any sign and message.  The bound is more than the number of
pages before an error, see `C104_ends`. -/
def writePages (d : Dms) (ms : Str) : List (Str × List UInt8) × Ending :=
  loop d (2 * ((slices ms).length + 1) + 1) 0 (Pages.new d ms)

/-- `main`, examples/render.rs:38-46 -/
def main (p : Profile) (props : List Tfon.TProp) : List (Str × List UInt8) × Ending :=
  match makeDms p props with
  | .ok d => writePages d multi
  | .panic q => ([], .panic q)

/-- the conversion of a raster with alpha channel to BGR, examples/bmp/mod.rs:14: the alpha channel is dropped.  All
channels of a clear pixel are 0. -/
def dropAlpha (r : RasterA) : Raster := ⟨r.width, r.height, fun x y => (r.px x y).getD (0, 0, 0)⟩

/-- `to_raster` and `bmp::write`, examples/graphic.rs:21-22, for any graphic -/
def writeGraphic (g : Graphic) : Res (List UInt8) :=
  match g.toRaster with
  | .ok r => Bmp.write (dropAlpha r)
  | .panic p => .panic p

/-- `graphic`, examples/graphic.rs:8-20 -/
def arrow : Graphic :=
  ⟨3, c!"arrow", 9, 11, .monochrome1Bit, none,
    [0x04, 0x00, 0x80, 0x10, 0x42, 0x14, 0x44, 0x49, 0x05, 0x40, 0x70, 0x04, 0x00]⟩

/-- `main`, examples/graphic.rs:7-23: the file written -/
def graphicMain : Res (Str × List UInt8) := (writeGraphic arrow).map' fun bs => (c!"graphic.bmp", bs)

end Ntcip.Example
