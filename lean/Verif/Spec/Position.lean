import Verif.Model.Sign
/-
Where the pixels of a sign are, in exact numbers: the specification of C25.
-/
namespace Ntcip.Spec

/-- One direction of a sign: its face (mm), border (mm), pitch (mm), pixels of a character cell, pixels. -/
structure Axis where
  face : Nat
  border : Nat
  pitch : Nat
  cell : Nat
  pixels : Nat

/-- horizontal -/
def Axis.horiz (d : Dms) : Axis where
  face := d.signCfg.signWidth.toNat
  border := d.signCfg.horizontalBorder.toNat
  pitch := d.vmsCfg.horizontalPitch.toNat
  cell := d.vmsCfg.charWidthPixels.toNat
  pixels := d.vmsCfg.signWidthPixels.toNat

/-- vertical -/
def Axis.vert (d : Dms) : Axis where
  face := d.signCfg.signHeight.toNat
  border := d.signCfg.verticalBorder.toNat
  pitch := d.vmsCfg.verticalPitch.toNat
  cell := d.vmsCfg.charHeightPixels.toNat
  pixels := d.vmsCfg.signHeightPixels.toNat

/-- gaps between character cells, of which the last one may be incomplete: one less than the cells; none when
the cells are single pixels -/
def Axis.gaps (a : Axis) : Nat := if a.cell ≤ 1 ∨ a.pixels ≤ 1 then 0 else (a.pixels - 1) / a.cell

/-- the pitch in use: not more than what lets all pixels and gaps have room on the face -/
def Axis.step (a : Axis) : Rat := min a.pitch (a.face / (a.pixels + a.gaps : Nat))

/-- the room which pixels and gaps of one pitch each leave on the face -/
def Axis.room (a : Axis) : Rat := a.face - (a.pixels + a.gaps : Nat) * a.step

/-- the border in use on each side -/
def Axis.margin (a : Axis) : Rat := if a.gaps = 0 then a.room / 2 else min a.border (a.room / 2)

/-- the size of the gaps -/
def Axis.gap (a : Axis) : Rat := (a.face - 2 * a.margin - a.pixels * a.step) / a.gaps

/-- the center of a pixel: behind the margin, the gaps between the cells before, the pixels before, and half of
the pixel itself -/
def Axis.center (a : Axis) (x : Nat) : Rat :=
  a.margin + (x / a.cell : Nat) * a.gap + (x + 1 / 2) * a.step

end Ntcip.Spec
