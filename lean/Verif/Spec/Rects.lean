import Verif.Model.Sign
/-
Specification of rectangles
-/
namespace Ntcip.Spec

/-- width and height of a rectangle, 0 extended to the edge of the sign (size `w`×`h`) -/
def extWidth (r : Rectangle) (w : Nat) : Nat :=
  if r.width.toNat = 0 then w - (r.x.toNat - 1) else r.width.toNat
def extHeight (r : Rectangle) (h : Nat) : Nat :=
  if r.height.toNat = 0 then h - (r.y.toNat - 1) else r.height.toNat

/-- the rectangle of the whole sign -/
abbrev signRect (d : Dms) : Rectangle := ⟨1, 1, d.vmsCfg.signWidthPixels, d.vmsCfg.signHeightPixels⟩

/-- the part of a sign a text rectangle tag stands for -/
def opened (d : Dms) (r : Rectangle) : Rectangle :=
  ⟨r.x, r.y, .ofNat (extWidth r d.vmsCfg.signWidthPixels.toNat), .ofNat (extHeight r d.vmsCfg.signHeightPixels.toNat)⟩

/-- size of the character cells of a sign, 1 when it has none -/
abbrev signCellWidth (d : Dms) : Nat := max d.vmsCfg.charWidthPixels.toNat 1
abbrev signCellHeight (d : Dms) : Nat := max d.vmsCfg.charHeightPixels.toNat 1

end Ntcip.Spec
