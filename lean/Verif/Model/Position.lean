import Verif.Model.F32
import Verif.Model.Sign
/-
Model of the pixel positions in /repo/src/dms/sign.rs:130-318.  `f32` values are rationals (Model/F32.lean).
`pix` is `u16` arithmetic which panics on overflow in the checked profile.
-/
namespace Ntcip.Dms
open F32

/-- `Dms::face_width_mm`; sign.rs:130-133 -/
def faceWidthMm (d : Dms) : Rat := F32.ofNat d.signCfg.signWidth.toNat

/-- `Dms::gap_char_count`; sign.rs:179-187 -/
def gapCharCount (d : Dms) : UInt16 :=
  let cw := d.charWidth.toUInt16
  if cw > 1 ∧ d.pixelWidth > cw then (d.pixelWidth - 1) / cw else 0

/-- `Dms::pitch_horiz`; sign.rs:161-164 -/
def pitchHoriz (d : Dms) : UInt8 := d.vmsCfg.horizontalPitch

/-- `Dms::pitch_horiz_mm`; sign.rs:166-177 -/
def pitchHorizMm (p : Profile) (d : Dms) : Res Rat := do
  let pitch := F32.ofNat d.pitchHoriz.toNat
  let pix ← addU16 p d.pixelWidth d.gapCharCount
  if pix > 0 then pure (fmin pitch (div d.faceWidthMm (F32.ofNat pix.toNat))) else pure pitch

/-- `Dms::border_horiz_mm`; sign.rs:140-154 -/
def borderHorizMm (p : Profile) (d : Dms) : Res Rat := do
  let pix ← addU16 p d.pixelWidth d.gapCharCount
  let minWidth := mul (F32.ofNat pix.toNat) (← pitchHorizMm p d)
  let extra := fmax (sub d.faceWidthMm minWidth) 0
  if d.gapCharCount > 0 then
    let border := F32.ofNat d.signCfg.horizontalBorder.toNat
    pure (fmin border (div extra 2))
  else pure (div extra 2)

/-- `Dms::pixel_width_mm`; sign.rs:156-159 -/
def pixelWidthMm (p : Profile) (d : Dms) : Res Rat := do
  pure (sub d.faceWidthMm (mul (← borderHorizMm p d) 2))

/-- `Dms::excess_char_mm`; sign.rs:219-223 -/
def excessCharMm (p : Profile) (d : Dms) : Res Rat := do
  let pixMm := mul (← pitchHorizMm p d) (F32.ofNat d.pixelWidth.toNat)
  pure (fmax (sub (← pixelWidthMm p d) pixMm) 0)

/-- `Dms::gap_char_mm`; sign.rs:209-217 -/
def gapCharMm (p : Profile) (d : Dms) : Res Rat := do
  let gaps := d.gapCharCount
  if gaps > 0 then pure (div (← excessCharMm p d) (F32.ofNat gaps.toNat)) else pure 0

/-- `Dms::char_offset_mm`; sign.rs:198-207 -/
def charOffsetMm (p : Profile) (d : Dms) (x : UInt32) : Res Rat := do
  let cw := d.charWidth.toUInt32
  if cw > 1 then
    let charNum := F32.ofNat (x / cw).toNat
    pure (mul charNum (← gapCharMm p d))
  else pure 0

/-- `Dms::pixel_x`; sign.rs:189-196.  `none` is not a finite number. -/
def pixelX (p : Profile) (d : Dms) (x width : UInt32) : Res (Option Rat) := do
  let border ← borderHorizMm p d
  let offset ← charOffsetMm p d x
  let x := add (F32.ofNat x.toNat) (1 / 2)
  let pos := add (add border offset) (mul x (← pitchHorizMm p d))
  pure (div? (mul (F32.ofNat width.toNat) pos) d.faceWidthMm)

/-- `Dms::face_height_mm`; sign.rs:225-228 -/
def faceHeightMm (d : Dms) : Rat := F32.ofNat d.signCfg.signHeight.toNat

/-- `Dms::gap_line_count`; sign.rs:274-282 -/
def gapLineCount (d : Dms) : UInt16 :=
  let ch := d.charHeight.toUInt16
  if ch > 1 ∧ d.pixelHeight > ch then (d.pixelHeight - 1) / ch else 0

/-- `Dms::pitch_vert`; sign.rs:256-259 -/
def pitchVert (d : Dms) : UInt8 := d.vmsCfg.verticalPitch

/-- `Dms::pitch_vert_mm`; sign.rs:261-272 -/
def pitchVertMm (p : Profile) (d : Dms) : Res Rat := do
  let pitch := F32.ofNat d.pitchVert.toNat
  let pix ← addU16 p d.pixelHeight d.gapLineCount
  if pix > 0 then pure (fmin pitch (div d.faceHeightMm (F32.ofNat pix.toNat))) else pure pitch

/-- `Dms::border_vert_mm`; sign.rs:235-249 -/
def borderVertMm (p : Profile) (d : Dms) : Res Rat := do
  let pix ← addU16 p d.pixelHeight d.gapLineCount
  let minHeight := mul (F32.ofNat pix.toNat) (← pitchVertMm p d)
  let extra := fmax (sub d.faceHeightMm minHeight) 0
  if d.gapLineCount > 0 then
    let border := F32.ofNat d.signCfg.verticalBorder.toNat
    pure (fmin border (div extra 2))
  else pure (div extra 2)

/-- `Dms::pixel_height_mm`; sign.rs:251-254 -/
def pixelHeightMm (p : Profile) (d : Dms) : Res Rat := do
  pure (sub d.faceHeightMm (mul (← borderVertMm p d) 2))

/-- `Dms::excess_line_mm`; sign.rs:314-318 -/
def excessLineMm (p : Profile) (d : Dms) : Res Rat := do
  let pixMm := mul (← pitchVertMm p d) (F32.ofNat d.pixelHeight.toNat)
  pure (fmax (sub (← pixelHeightMm p d) pixMm) 0)

/-- `Dms::gap_line_mm`; sign.rs:304-312 -/
def gapLineMm (p : Profile) (d : Dms) : Res Rat := do
  let gaps := d.gapLineCount
  if gaps > 0 then pure (div (← excessLineMm p d) (F32.ofNat gaps.toNat)) else pure 0

/-- `Dms::line_offset_mm`; sign.rs:293-302 -/
def lineOffsetMm (p : Profile) (d : Dms) (y : UInt32) : Res Rat := do
  let ch := d.charHeight.toUInt32
  if ch > 1 then
    let lineNum := F32.ofNat (y / ch).toNat
    pure (mul lineNum (← gapLineMm p d))
  else pure 0

/-- `Dms::pixel_y`; sign.rs:284-291 -/
def pixelY (p : Profile) (d : Dms) (y height : UInt32) : Res (Option Rat) := do
  let border ← borderVertMm p d
  let offset ← lineOffsetMm p d y
  let y := add (F32.ofNat y.toNat) (1 / 2)
  let pos := add (add border offset) (mul y (← pitchVertMm p d))
  pure (div? (mul (F32.ofNat height.toNat) pos) d.faceHeightMm)

end Ntcip.Dms
