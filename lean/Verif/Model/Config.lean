import Verif.Model.Multi
/-
Model of /repo/src/dms/config.rs
-/
namespace Ntcip

/-- `CfgError`; config.rs:11-19 -/
inductive CfgError where
  | invalidPageCfg | invalidDimensions
  deriving DecidableEq, Repr

/-- `DmsSignAccess`; config.rs:21-30 -/
inductive DmsSignAccess where
  | other | walkIn | rear | front
  deriving DecidableEq, Repr

/-- `DmsSignType`; config.rs:32-47 -/
inductive DmsSignType where
  | other | bos | cms | vmsChar | vmsLine | vmsFull
  | portableOther | portableBos | portableCms | portableVmsChar | portableVmsLine | portableVmsFull
  deriving DecidableEq, Repr

/-- `DmsLegend`; config.rs:49-56 -/
inductive DmsLegend where
  | other | noLegend | legendExists
  deriving DecidableEq, Repr

/-- `DmsBeaconType`; config.rs:58-74 -/
inductive DmsBeaconType where
  | other | none | oneBeacon | twoBeaconSyncFlash | twoBeaconsOppFlash | fourBeaconSyncFlash
  | fourBeaconAltRowFlash | fourBeaconAltColumnFlash | fourBeaconAltDiagonalFlash
  | fourBeaconNoSyncFlash | oneBeaconStrobe | twoBeaconStrobe | fourBeaconStrobe
  deriving DecidableEq, Repr

/-- `DmsSignTechnology`; config.rs:76-88 -/
inductive DmsSignTechnology where
  | other | led | flipDisk | fiberOptics | shuttered | bulb | drum
  deriving DecidableEq, Repr

/-- `CharacterSet`; config.rs:90-95 -/
inductive CharacterSet where
  | other | eightBit
  deriving DecidableEq, Repr

/-- `SignCfg`; config.rs:97-120.  `BitFlags<T>` is the set of flags, `T → Bool`. -/
structure SignCfg where
  signAccess : DmsSignAccess → Bool
  signType : DmsSignType
  signHeight : UInt16
  signWidth : UInt16
  horizontalBorder : UInt16
  verticalBorder : UInt16
  legend : DmsLegend
  beaconType : DmsBeaconType
  signTechnology : DmsSignTechnology → Bool

/-- `VmsCfg`; config.rs:122-141.  `monochrome_color: [u8; 6]` is split in its two colors. -/
structure VmsCfg where
  charHeightPixels : UInt8
  charWidthPixels : UInt8
  signHeightPixels : UInt16
  signWidthPixels : UInt16
  horizontalPitch : UInt8
  verticalPitch : UInt8
  monoForeground : Rgb
  monoBackground : Rgb
  deriving DecidableEq, Repr

/-- `MultiCfg`; config.rs:143-178 -/
structure MultiCfg where
  defaultBackgroundRgb : Color
  defaultForegroundRgb : Color
  defaultFlashOn : UInt8
  defaultFlashOff : UInt8
  defaultFont : UInt8
  defaultJustificationLine : JustificationLine
  defaultJustificationPage : JustificationPage
  defaultPageOnTime : UInt8
  defaultPageOffTime : UInt8
  defaultCharacterSet : CharacterSet
  colorScheme : ColorScheme
  supportedMultiTags : Tag → Bool
  maxNumberPages : UInt8
  maxMultiStringLength : UInt16

/-- `SignCfg::default()`; config.rs:180-194 -/
def SignCfg.default : SignCfg where
  signAccess := fun _ => false
  signType := .vmsChar
  signHeight := 1650
  signWidth := 2920
  horizontalBorder := 60
  verticalBorder := 60
  legend := .noLegend
  beaconType := .none
  signTechnology := fun t => t == .led

/-- `VmsCfg::default()`; config.rs:221-233 -/
def VmsCfg.default : VmsCfg where
  charHeightPixels := 7
  charWidthPixels := 5
  signHeightPixels := 21
  signWidthPixels := 40
  horizontalPitch := 70
  verticalPitch := 70
  monoForeground := (0xFF, 0x70, 0xE0)
  monoBackground := (0, 0, 0)

/-- the default set of supported tags; config.rs:237-251 -/
def defaultTags : Tag → Bool := fun t =>
  t ∈ [Tag.cb, .cf, .fo, .g, .hc, .jl, .jp, .nl, .np, .pt, .sc, .tr, .cr, .pb]

/-- `MultiCfg::default()`; config.rs:235-269 -/
def MultiCfg.default : MultiCfg where
  defaultBackgroundRgb := .legacy ColorClassic.black.toU8
  defaultForegroundRgb := .legacy ColorClassic.amber.toU8
  defaultFlashOn := 5
  defaultFlashOff := 5
  defaultFont := 1
  defaultJustificationLine := .center
  defaultJustificationPage := .middle
  defaultPageOnTime := 30
  defaultPageOffTime := 0
  defaultCharacterSet := .eightBit
  colorScheme := .monochrome1Bit
  supportedMultiTags := defaultTags
  maxNumberPages := 4
  maxMultiStringLength := 65535

namespace SignCfg

/-- `SignCfg::is_width_valid`; config.rs:206-211 -/
def isWidthValid (p : Profile) (s : SignCfg) (v : VmsCfg) : Res Bool := do
  let m ← mulU16 p v.signWidthPixels v.horizontalPitch.toUInt16
  let t ← addU16 p s.horizontalBorder m
  pure (decide (t ≤ s.signWidth))

/-- `SignCfg::is_height_valid`; config.rs:213-218 -/
def isHeightValid (p : Profile) (s : SignCfg) (v : VmsCfg) : Res Bool := do
  let m ← mulU16 p v.signHeightPixels v.verticalPitch.toUInt16
  let t ← addU16 p s.verticalBorder m
  pure (decide (t ≤ s.signHeight))

/-- `SignCfg::validate`; config.rs:197-204 (`&&` is lazy) -/
def validate (p : Profile) (s : SignCfg) (v : VmsCfg) : Out CfgError Unit := do
  let w ← .ofRes (s.isWidthValid p v)
  if w then
    let h ← .ofRes (s.isHeightValid p v)
    if h then pure () else .err .invalidDimensions
  else .err .invalidDimensions

end SignCfg

/-- `MultiCfg::validate`; config.rs:271-282 -/
def MultiCfg.validate (m : MultiCfg) : Except CfgError Unit :=
  if m.maxNumberPages = 0 ∨ (m.maxNumberPages > 1 ∧ m.supportedMultiTags .np = false) then
    .error .invalidPageCfg
  else .ok ()

end Ntcip
