import Verif.Spec.Added
import Verif.Spec.Layout
/-
Specification of a text rectangle which begins at the next line of the text before it.
-/
namespace Ntcip.Spec

/-- number of new lines -/
def newLines : List Value → Nat
  | [] => 0
  | .newLine _ :: vs => newLines vs + 1
  | _ :: vs => newLines vs

/-- the texts of a text rectangle, with a new line and the values `ws` added -/
def LastText.more (d : Dms) (l : LastText) (s : Option UInt8) (ws : List Value) : List Span :=
  layoutOf d l.attr l.spacing l.rect (l.values ++ .newLine s :: ws)

/-- The text rectangle `r` begins at the line which a new line would begin after the text `l`: at the same left, with the
same width, and lower by the heights of the lines of `l` and the spaces below them. -/
structure AtNextLine (d : Dms) (l : LastText) (s : Option UInt8) (ws : List Value) (r : Rectangle) : Prop where
  left : r.x = l.rect.x
  width : (opened d r).width = l.rect.width
  top : r.y.toNat - 1 = l.rect.y.toNat - 1 +
    linesHeight (decide (d.vmsCfg.charHeightPixels = 0)) d.fontDefinition (l.more d s ws) (newLines l.values) +
    lineSpace (decide (d.vmsCfg.charHeightPixels = 0)) d.fontDefinition (l.more d s ws) (newLines l.values)

end Ntcip.Spec
