import Verif.Model.Render
import Verif.Tests.Fonts
/-
Conformance of the model: the unit tests of /repo/src/dms/render.rs:955-1209 and of
/repo/src/dms/graphic.rs:327-385, evaluated on the model by the kernel.
-/
namespace Ntcip.Tests

/-- `font_table`; render.rs:962-971 -/
def renderFonts : FontTable := [f07c, f08, .default 128, .default 128]

/-- the sign of `render_full`; render.rs:973-1002 -/
def fullDms : Dms where
  signCfg := { SignCfg.default with signWidth := 2100, signHeight := 1110 }
  vmsCfg := { VmsCfg.default with
    charHeightPixels := 0, charWidthPixels := 0, signHeightPixels := 30, signWidthPixels := 60
    horizontalPitch := 33, verticalPitch := 33 }
  fontDefinition := renderFonts
  multiCfg := { MultiCfg.default with
    defaultJustificationLine := .left, defaultJustificationPage := .top, defaultFont := 8
    colorScheme := .color24Bit, defaultForegroundRgb := .ofRgb ColorClassic.white.rgb }
  graphicDefinition := []

/-- the sign of `render_char`; render.rs:1087-1112 -/
def charDms : Dms where
  signCfg := { SignCfg.default with signWidth := 7120, signHeight := 1590 }
  vmsCfg := { VmsCfg.default with
    charHeightPixels := 7, charWidthPixels := 5, signHeightPixels := 21, signWidthPixels := 100 }
  fontDefinition := renderFonts
  multiCfg := { MultiCfg.default with
    defaultJustificationLine := .left, defaultJustificationPage := .top, defaultFont := 5 }
  graphicDefinition := []

/-- the sign of `render_line`; render.rs:1152-1177 -/
def lineDms : Dms where
  signCfg := { SignCfg.default with signWidth := 7120, signHeight := 1800 }
  vmsCfg := { VmsCfg.default with
    charHeightPixels := 8, charWidthPixels := 0, signHeightPixels := 24, signWidthPixels := 100 }
  fontDefinition := renderFonts
  multiCfg := { MultiCfg.default with
    defaultJustificationLine := .left, defaultJustificationPage := .top, defaultFont := 8 }
  graphicDefinition := []

example : (fullDms.intoBuilder.build .checked matches .ok _) = true := by decide +kernel
example : (charDms.intoBuilder.build .checked matches .ok _) = true := by decide +kernel
example : (lineDms.intoBuilder.build .checked matches .ok _) = true := by decide +kernel

/-- `collect::<Result<Vec<Page>>>()` of the pages, for strings of less than 20 pages -/
def collectPages : Nat → Dms → Pages → Out SyntaxError (List Page)
  | 0, _, _ => .ok []
  | n + 1, d, pg => match Pages.next d pg with
    | .panic p => .panic p
    | .ok (none, _) => .ok []
    | .ok (some (.error e), _) => .err e
    | .ok (some (.ok p), pg) => match collectPages n d pg with
      | .ok ps => .ok (p :: ps)
      | x => x

def render (d : Dms) (ms : Str) : Out SyntaxError (List Page) := collectPages 20 d (Pages.new d ms)

def pageCount : Out SyntaxError (List Page) → Option Nat
  | .ok ps => some ps.length
  | _ => none

def pageTime (i : Nat) : Out SyntaxError (List Page) → Option Nat
  | .ok ps => (ps[i]?).map (·.durationDs)
  | _ => none

/-- `justify_dot`; render.rs:1038-1052 -/
def justifyDot (ms : Str) (i : Nat) : Bool :=
  match render fullDms ms with
  | .ok [p] => p.raster.width == 60 && p.raster.height == 30 &&
    (gridPoints 60 30).all fun (x, y) =>
      p.raster.px x y == (if y * 60 + x = i then (255, 255, 255) else (0, 0, 0))
  | _ => false

def isTagValueError : Out SyntaxError (List Page) → Bool
  | .err (.unsupportedTagValue _) => true
  | _ => false

def isOkPages : Out SyntaxError (List Page) → Bool
  | .ok _ => true
  | _ => false

example : pageCount (render fullDms c!"") = some 1 := by decide +kernel
example : pageCount (render fullDms c!"1") = some 1 := by decide +kernel
example : pageCount (render fullDms c!"[np]") = some 2 := by decide +kernel
example : pageCount (render fullDms c!"1[NP]") = some 2 := by decide +kernel
example : pageCount (render fullDms c!"1[Np]2") = some 2 := by decide +kernel
example : pageCount (render fullDms c!"1[np]2[nP]") = some 3 := by decide +kernel
example : pageCount (render fullDms c!"[pto1]1[np]2") = some 4 := by decide +kernel
example : pageCount (render fullDms c!"[pto1][np]") = some 4 := by decide +kernel
example : pageCount (render fullDms c!"[fo8][jl2][cf255,255,255]RAMP A[jl4][cf255,255,0]FULL[nl][jl2][cf255,255,255]RAMP B[jl4][cf255,255,0]FULL[nl][jl2][cf255,255,255]RAMP C[jl4][cf255,255,0]FULL") = some 1 := by decide +kernel
example : pageTime 0 (render fullDms c!"") = some 30 := by decide +kernel
example : pageTime 0 (render fullDms c!"[pt25o10]") = some 25 := by decide +kernel
example : pageTime 1 (render fullDms c!"[pt20o10]") = some 10 := by decide +kernel
example : pageTime 2 (render fullDms c!"[pt30o5][np]") = some 30 := by decide +kernel
example : pageTime 3 (render fullDms c!"[pto15][np]") = some 15 := by decide +kernel
example : justifyDot c!"." 420 = true := by decide +kernel
example : justifyDot c!"[jl3]." 449 = true := by decide +kernel
example : justifyDot c!"[jl4]." 478 = true := by decide +kernel
example : justifyDot c!"[jp3]." 1080 = true := by decide +kernel
example : justifyDot c!"[jp4]." 1740 = true := by decide +kernel
example : justifyDot c!" ." 423 = true := by decide +kernel
example : justifyDot c!"[sc4] .[/sc]" 425 = true := by decide +kernel
example : justifyDot c!"[sc5] .[/sc]" 426 = true := by decide +kernel
example : justifyDot c!"[nl]." 1020 = true := by decide +kernel
example : justifyDot c!"[nl1]." 960 = true := by decide +kernel
example : justifyDot c!"[nl3]." 1080 = true := by decide +kernel
example : justifyDot c!"[tr2,1,10,10]." 421 = true := by decide +kernel
example : justifyDot c!"[tr1,2,10,10]." 480 = true := by decide +kernel
example : justifyDot c!"[tr2,2,10,10]." 481 = true := by decide +kernel
example : isTagValueError (render charDms c!"[tr1,1,12,12]") = true := by decide +kernel
example : isTagValueError (render charDms c!"[tr1,1,50,12]") = true := by decide +kernel
example : isTagValueError (render charDms c!"[tr1,1,12,14]") = true := by decide +kernel
example : isOkPages (render charDms c!"[tr1,1,50,14]") = true := by decide +kernel
example : isTagValueError (render charDms c!"[pb9]") = true := by decide +kernel
example : isTagValueError (render charDms c!"[sc1][/sc]") = true := by decide +kernel
example : isOkPages (render charDms c!"[sc0][/sc]") = true := by decide +kernel
example : isOkPages (render lineDms c!".[nl].[nl].") = true := by decide +kernel
example : isOkPages (render lineDms c!"[nl]") = true := by decide +kernel
example : isTagValueError (render lineDms c!"[nl1]") = true := by decide +kernel
example : isOkPages (render lineDms c!"[jl3]LINE 1[nl][jl2][jp2]LINE 2") = true := by decide +kernel

/-- `graphic_table`; graphic.rs:331-368 -/
def testGraphics : GraphicTable :=
  [⟨4, c!"Example 2", 6, 10, .monochrome1Bit, none,
     [0x84, 0x92, 0x63, 0x08, 0xC2, 0x48, 0xA1, 0x70]⟩,
   ⟨5, c!"Example 3", 4, 4, .colorClassic, some (.legacy ColorClassic.white.toU8),
     [1, 1, 1, 1, 7, 7, 1, 7, 7, 1, 7, 7, 1, 1, 1, 1]⟩,
   ⟨7, c!"Example 4", 2, 2, .color24Bit, some (.rgb 0 0xFF 0),
     [0xFF, 0xFF, 0xFF, 0xFF, 0x00, 0xFF, 0x00, 0xFF, 0x00, 0xFF, 0x00, 0xFF]⟩]

example : GraphicTable.validate testGraphics 50 50 = .ok () := by decide +kernel
example : (GraphicTable.graphic testGraphics 4).map Graphic.versionId = some 0xBFF5 := by decide +kernel
example : (GraphicTable.graphic testGraphics 5).map Graphic.versionId = some 0x8FE0 := by decide +kernel
example : (GraphicTable.graphic testGraphics 7).map Graphic.versionId = some 0x078D := by decide +kernel

end Ntcip.Tests
