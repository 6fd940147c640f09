import Verif.Model.Config
import Verif.Model.Font
import Verif.Model.Graphic
/-
Model of /repo/src/dms/sign.rs, except pixel positions (see Position.lean).
-/
namespace Ntcip

/-- `SignError`; sign.rs:10-21 -/
inductive SignError where
  | cfg (e : CfgError)
  | font (e : FontError)
  | graphic (e : GraphicError)
  deriving DecidableEq, Repr

/-- `Dms`; sign.rs:33-48.  `DmsBuilder` (sign.rs:23-31) has the same fields. -/
structure Dms where
  signCfg : SignCfg
  vmsCfg : VmsCfg
  fontDefinition : FontTable
  multiCfg : MultiCfg
  graphicDefinition : GraphicTable

/-- `DmsBuilder`; sign.rs:23-31 -/
structure DmsBuilder where
  signCfg : SignCfg
  vmsCfg : VmsCfg
  fontDefinition : FontTable
  multiCfg : MultiCfg
  graphicDefinition : GraphicTable

/-- `Dms::builder()` = `DmsBuilder::default()`; sign.rs:24, 104-107 -/
def DmsBuilder.default (C F G : Nat) : DmsBuilder :=
  ⟨.default, .default, .default C F, .default, .default G⟩

namespace DmsBuilder

/-- sign.rs:51-55 -/
def withSignCfg (b : DmsBuilder) (cfg : SignCfg) : DmsBuilder := { b with signCfg := cfg }
/-- sign.rs:57-61 -/
def withVmsCfg (b : DmsBuilder) (cfg : VmsCfg) : DmsBuilder := { b with vmsCfg := cfg }
/-- sign.rs:63-67 -/
def withFontDefinition (b : DmsBuilder) (fonts : FontTable) : DmsBuilder :=
  { b with fontDefinition := fonts }
/-- sign.rs:69-73 -/
def withMultiCfg (b : DmsBuilder) (cfg : MultiCfg) : DmsBuilder := { b with multiCfg := cfg }
/-- sign.rs:75-82 -/
def withGraphicDefinition (b : DmsBuilder) (graphics : GraphicTable) : DmsBuilder :=
  { b with graphicDefinition := graphics }

/-- a `Result` used in a function that can also panic -/
def liftE {ε α : Type} : Except ε α → Out ε α
  | .ok a => .ok a
  | .error e => .err e

/-- `DmsBuilder::build`; sign.rs:84-100 -/
def build (p : Profile) (b : DmsBuilder) : Out SignError Dms := do
  (b.signCfg.validate p b.vmsCfg).mapErr .cfg
  (liftE b.multiCfg.validate).mapErr .cfg
  (FontTable.validate b.fontDefinition).mapErr .font
  let width := b.vmsCfg.signWidthPixels
  let height := b.vmsCfg.signHeightPixels
  let graphics := GraphicTable.retain b.graphicDefinition width height
  (liftE (GraphicTable.validate graphics width height)).mapErr .graphic
  pure { signCfg := b.signCfg, vmsCfg := b.vmsCfg, fontDefinition := b.fontDefinition,
         multiCfg := b.multiCfg, graphicDefinition := graphics }

end DmsBuilder

namespace Dms

/-- `Dms::into_builder`; sign.rs:109-118 -/
def intoBuilder (d : Dms) : DmsBuilder :=
  ⟨d.signCfg, d.vmsCfg, d.fontDefinition, d.multiCfg, d.graphicDefinition⟩

/-- `Dms::pixel_width`; sign.rs:135-138 -/
abbrev pixelWidth (d : Dms) : UInt16 := d.vmsCfg.signWidthPixels
/-- `Dms::pixel_height`; sign.rs:230-233 -/
abbrev pixelHeight (d : Dms) : UInt16 := d.vmsCfg.signHeightPixels
/-- `Dms::char_width`; sign.rs:320-323 -/
abbrev charWidth (d : Dms) : UInt8 := d.vmsCfg.charWidthPixels
/-- `Dms::char_height`; sign.rs:325-328 -/
abbrev charHeight (d : Dms) : UInt8 := d.vmsCfg.charHeightPixels

/-- `Dms::foreground_default_rgb`; sign.rs:335-346 -/
def foregroundDefaultRgb (d : Dms) : Rgb :=
  match d.multiCfg.colorScheme with
  | .colorClassic => d.multiCfg.defaultForegroundRgb.toRgb
  | .color24Bit => d.multiCfg.defaultForegroundRgb.toRgb
  | _ => d.vmsCfg.monoForeground

/-- `Dms::background_default_rgb`; sign.rs:348-359 -/
def backgroundDefaultRgb (d : Dms) : Rgb :=
  match d.multiCfg.colorScheme with
  | .colorClassic => d.multiCfg.defaultBackgroundRgb.toRgb
  | .color24Bit => d.multiCfg.defaultBackgroundRgb.toRgb
  | _ => d.vmsCfg.monoBackground

/-- `Dms::color_ctx`; sign.rs:361-367 -/
def colorCtx (d : Dms) : ColorCtx :=
  ColorCtx.new d.multiCfg.colorScheme d.foregroundDefaultRgb d.backgroundDefaultRgb

/-- `Dms::full_rect`; sign.rs:369-372 -/
abbrev fullRect (d : Dms) : Rectangle := ⟨1, 1, d.pixelWidth, d.pixelHeight⟩

/-- The `while` loop of `rect_lines`; sign.rs:388-392.  When it does not stop within
`fuel` rounds the result is `diverge`; `rectLines` gives enough fuel (Lemmas/Lines.lean). -/
def rectLinesLoop (lineHeight lineSpacing height : Nat) : Nat → Nat → Res Nat
  | 0, _ => .panic .diverge
  | fuel + 1, n =>
    if lineHeight * (n + 1) + lineSpacing * n ≤ height then
      rectLinesLoop lineHeight lineSpacing height fuel (n + 1)
    else .ok n

/-- `Dms::rect_lines`; sign.rs:374-395 -/
def rectLines (d : Dms) (rect : Rectangle) (fontNum : UInt8) : Res Nat :=
  match FontTable.font d.fontDefinition fontNum with
  | none => .ok 0
  | some font =>
    let h := rect.height.toNat
    if d.charHeight = 0 then
      rectLinesLoop font.height.toNat font.lineSpacing.toNat h (h + 3) 0
    else if font.height > d.charHeight then .ok 0
    else rectLinesLoop d.charHeight.toNat 0 h (h + 3) 0

end Dms
end Ntcip
