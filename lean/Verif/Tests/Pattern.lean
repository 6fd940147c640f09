import Verif.Model.Pattern
import Verif.Tests.Fonts
/-
Conformance of the model: the unit tests of /repo/src/dms/pattern.rs:277-595, evaluated on the
model by the kernel.
-/
namespace Ntcip.Tests

/-- the sign of `make_dms`; pattern.rs:294-315 -/
def patDms : Dms where
  signCfg := { SignCfg.default with signWidth := 5120, signHeight := 1590 }
  vmsCfg := { VmsCfg.default with
    charHeightPixels := 0, charWidthPixels := 0, signHeightPixels := 21, signWidthPixels := 50 }
  fontDefinition := [f07, f08]
  multiCfg := { MultiCfg.default with defaultFont := 8 }
  graphicDefinition := []

example : (patDms.intoBuilder.build .checked matches .ok _) = true := by decide +kernel

/-- `pattern_rects`; pattern.rs:317-325 -/
def rects (d : Dms) (ms : Str) : List (Rectangle × UInt8) :=
  (patItems d ms).filterMap fun
    | .ok (.ok (.fillableRect r f)) => some (r, f)
    | _ => none

/-- `roundtrip_2`; pattern.rs:548-553 -/
def roundtrip (pat ms : Str) : Res Str := do
  let ls ← lines patDms pat ms
  fill patDms pat ls

-- fillable_rect1
example : rects patDms c!"" = [(⟨1, 1, 50, 21⟩, 8)] := by decide +kernel

-- fillable_rect2
example : rects patDms c!"TEXT" = [] := by decide +kernel

-- fillable_rect3
example : rects patDms c!"[np]" = [(⟨1, 1, 50, 21⟩, 8), (⟨1, 1, 50, 21⟩, 8)] := by decide +kernel

-- fillable_rect4
example : rects patDms c!"FIRST[np]" = [(⟨1, 1, 50, 21⟩, 8)] := by decide +kernel

-- fillable_rect5
example : rects patDms c!"[np]SECOND" = [(⟨1, 1, 50, 21⟩, 8)] := by decide +kernel

-- fillable_rect6
example : rects patDms c!"[np][np]" = [(⟨1, 1, 50, 21⟩, 8), (⟨1, 1, 50, 21⟩, 8), (⟨1, 1, 50, 21⟩, 8)] := by decide +kernel

-- fillable_rect7
example : rects patDms c!"[tr1,1,50,24]" = [(⟨1, 1, 50, 24⟩, 8)] := by decide +kernel

-- fillable_rect8
example : rects patDms c!"[tr1,1,50,24]TEXT" = [] := by decide +kernel

-- fillable_rect9
example : rects patDms c!"[tr1,1,50,12][tr1,14,50,12]" = [(⟨1, 1, 50, 12⟩, 8), (⟨1, 14, 50, 12⟩, 8)] := by decide +kernel

-- fillable_rect10
example : rects patDms c!"[tr1,1,50,12][fo7][tr1,14,50,12]" = [(⟨1, 1, 50, 12⟩, 8), (⟨1, 14, 50, 12⟩, 7)] := by decide +kernel

-- fillable_rect11
example : rects patDms c!"[tr1,1,50,12][fo7][tr1,14,50,12][fo8][np]" = [(⟨1, 1, 50, 12⟩, 8), (⟨1, 14, 50, 12⟩, 7), (⟨1, 1, 50, 21⟩, 8)] := by decide +kernel

-- fillable_rect12
example : rects patDms c!"[tr1,1,25,0][tr26,1,0,0]" = [(⟨1, 1, 25, 21⟩, 8), (⟨26, 1, 25, 21⟩, 8)] := by decide +kernel

-- fillable_rect13
example : rects patDms c!"[tr1,1,0,0][np][tr1,1,0,0]" = [(⟨1, 1, 50, 21⟩, 8), (⟨1, 1, 50, 21⟩, 8)] := by decide +kernel

-- fillable_width_1
example : widths patDms c!"" = .ok [(50, 8, 0), (50, 8, 0)] := by decide +kernel

-- fillable_width_2
example : widths patDms c!"[np]" = .ok [(50, 8, 0), (50, 8, 0), (50, 8, 1), (50, 8, 1)] := by decide +kernel

-- fillable_width_3
example : widths patDms c!"FIRST[np]" = .ok [(50, 8, 0), (50, 8, 0)] := by decide +kernel

-- fillable_width_4
example : widths patDms c!"[tr1,1,50,12][tr1,14,50,12]" = .ok [(50, 8, 0), (50, 8, 1)] := by decide +kernel

-- fillable_width_5
example : widths patDms c!"[tr1,1,50,12][fo7][tr1,14,50,12]" = .ok [(50, 8, 0), (50, 7, 1)] := by decide +kernel

-- fillable_width_6
example : widths patDms c!"[tr1,1,25,0][tr26,1,0,0]" = .ok [(25, 8, 0), (25, 8, 0), (25, 8, 1), (25, 8, 1)] := by decide +kernel

-- roundtrip_fillable_1
example : roundtrip c!"" c!"[nl]" = .ok c!"[nl]" := by decide +kernel

-- roundtrip_fillable_1
example : roundtrip c!"" c!"LINE 1[nl]LINE 2" = .ok c!"LINE 1[nl]LINE 2" := by decide +kernel

-- roundtrip_fillable_1
example : roundtrip c!"" c!"ABC[nl][jl2]D[jl3]E[jl4]F" = .ok c!"ABC[nl][jl2]D[jl3]E[jl4]F" := by decide +kernel

-- roundtrip_fillable_1
example : roundtrip c!"" c!"ABC[sc3]DEF[/sc][nl]" = .ok c!"ABC[sc3]DEF[/sc][nl]" := by decide +kernel

-- roundtrip_fillable_1
example : roundtrip c!"[np]" c!"[nl][np][nl]" = .ok c!"[nl][np][nl]" := by decide +kernel

-- roundtrip_fillable_1
example : roundtrip c!"[np]" c!"PAGE 1[nl][np]PAGE 2[nl]" = .ok c!"PAGE 1[nl][np]PAGE 2[nl]" := by decide +kernel

-- roundtrip_fillable_1
example : roundtrip c!"FIRST[np]" c!"FIRST[np]SECOND[nl]" = .ok c!"FIRST[np]SECOND[nl]" := by decide +kernel

-- roundtrip_fillable_1
example : roundtrip c!"[np][np]" c!"[nl][np][nl][np][nl]" = .ok c!"[nl][np][nl][np][nl]" := by decide +kernel

-- roundtrip_fillable_1
example : roundtrip c!"" c!"CRASH[nl]AHEAD" = .ok c!"CRASH[nl]AHEAD" := by decide +kernel

-- roundtrip_fillable_1
example : roundtrip c!"[tr1,1,50,12][tr1,14,50,12]" c!"[tr1,1,50,12]FIRST[tr1,14,50,12]SECOND" = .ok c!"[tr1,1,50,12]FIRST[tr1,14,50,12]SECOND" := by decide +kernel

-- roundtrip_fillable_1
example : roundtrip c!"[tr1,1,50,12][fo7][tr1,14,50,12]" c!"[tr1,1,50,12]1ST[fo7][tr1,14,50,12]2ND" = .ok c!"[tr1,1,50,12]1ST[fo7][tr1,14,50,12]2ND" := by decide +kernel

-- roundtrip_fillable_1
example : roundtrip c!"[tr1,1,50,8][fo7][tr1,10,50,7]" c!"[tr1,1,50,8]ABC[fo7][tr1,10,50,7]123" = .ok c!"[tr1,1,50,8]ABC[fo7][tr1,10,50,7]123" := by decide +kernel

-- roundtrip_fillable_1
example : roundtrip c!"[g1][tr1,10,50,8]" c!"[g1][tr1,10,50,8]TEXT" = .ok c!"[g1][tr1,10,50,8]TEXT" := by decide +kernel

-- roundtrip_fillable_2
example : roundtrip c!"" c!"ABC[nl3]DEF" = .ok c!"ABC[nl]DEF" := by decide +kernel

-- roundtrip_fillable_2
example : roundtrip c!"" c!"[cb8]ABC" = .ok c!"[nl]" := by decide +kernel

-- roundtrip_fillable_2
example : roundtrip c!"" c!"[pb0,0,0]ABC" = .ok c!"[nl]" := by decide +kernel

-- roundtrip_fillable_2
example : roundtrip c!"" c!"[cr255,0,0,0]ABC" = .ok c!"[nl]" := by decide +kernel

-- roundtrip_fillable_2
example : roundtrip c!"" c!"[fo7]ABC" = .ok c!"[nl]" := by decide +kernel

-- roundtrip_fillable_2
example : roundtrip c!"" c!"[g1,0,0]ABC" = .ok c!"[nl]" := by decide +kernel

-- roundtrip_fillable_2
example : roundtrip c!"" c!"[jp3]ABC" = .ok c!"[nl]" := by decide +kernel

-- roundtrip_fillable_2
example : roundtrip c!"" c!"[pt50o0]ABC" = .ok c!"[nl]" := by decide +kernel

-- roundtrip_fillable_2
example : roundtrip c!"[np]" c!"PAGE 1[np]PAGE 2" = .ok c!"PAGE 1[nl][np]PAGE 2[nl]" := by decide +kernel

-- roundtrip_fillable_2
example : roundtrip c!"FIRST[np]" c!"FIRST[np]SECOND" = .ok c!"FIRST[np]SECOND[nl]" := by decide +kernel

-- roundtrip_fillable_2
example : roundtrip c!"[tr1,1,25,0][tr26,1,0,0]" c!"[tr1,1,25,0]ONE[tr26,1,0,0]TWO" = .ok c!"[tr1,1,25,0]ONE[nl][tr26,1,0,0]TWO[nl]" := by decide +kernel

-- roundtrip_fillable_2
example : roundtrip c!"[tr1,1,0,0][np][tr1,1,0,0]" c!"[tr1,1,0,0]TEXT[np][tr1,1,0,0]PAGE 2" = .ok c!"[tr1,1,0,0]TEXT[nl][np][tr1,1,0,0]PAGE 2[nl]" := by decide +kernel

-- fillable_lines_fail
example : lines patDms c!"TEXT" c!"TEXT" = .ok [] := by decide +kernel
example : lines patDms c!"[tr1,1,25,0]" c!"[tr1,1,25,21]TEXT" = .ok [] := by decide +kernel
-- fillable_lines_pages
example : lines patDms c!"[np]" c!"LINE 1[nl]LINE 2" = .ok [c!"LINE 1", c!"LINE 2", [], []] := by
  decide +kernel
-- fill_1
example : fill patDms c!"LINE 1[nl]LINE 2[nl]LINE 3" [c!"ABC", c!"DEF", c!"GHI"] =
    .ok c!"LINE 1[nl]LINE 2[nl]LINE 3" := by decide +kernel

end Ntcip.Tests
