import Verif.Spec.Drawn
import Verif.Spec.Compose
/-
Specification of texts with enough room for each other.
-/
namespace Ntcip.Spec

/-- the first and last pixel (exclusive) of two ranges are in order: the ranges have no pixel in common -/
def Beside (a b : Nat × Nat) : Prop := a.2 ≤ b.1 ∨ b.2 ≤ a.1

/-- the columns of a line with the justification `j` and the width `total` in the rectangle (centered text may begin
further to the left, at the edge of a character cell) -/
def lineColumns (d : Dms) (r : Rectangle) (j : JustificationLine) (total : Nat) : Nat × Nat :=
  (if j = .center then cellEdge (signCellWidth d) (lineLeft r j total) else lineLeft r j total, lineLeft r j total + total)

/-- the rows of the lines with the page justification `j` and the height `total` in the rectangle (text in the middle may
begin further up, at the edge of a character cell) -/
def linesRows (d : Dms) (r : Rectangle) (j : JustificationPage) (total : Nat) : Nat × Nat :=
  (if j = .middle then cellEdge (signCellHeight d) (linesTop r j total) else linesTop r j total, linesTop r j total + total)

/-- The texts of a rectangle have room: on each line those with different justifications, and on the page the lines with
different page justifications.  Centered texts are whole character cells wide, and fonts in the middle are whole
character cells high (always so on signs without character cells). -/
structure Roomy (d : Dms) (r : Rectangle) (spans : List Span) : Prop where
  line : ∀ a ∈ spans, ∀ b ∈ spans, a.state.justPage = b.state.justPage → a.state.lineNumber = b.state.lineNumber →
    a.state.justLine ≠ b.state.justLine → ∀ ta tb, LineWidth d.fontDefinition none (sameLine spans a) ta →
    LineWidth d.fontDefinition none (sameLine spans b) tb →
    Beside (lineColumns d r a.state.justLine ta) (lineColumns d r b.state.justLine tb)
  page : ∀ a ∈ spans, ∀ b ∈ spans, a.state.justPage ≠ b.state.justPage → ∀ m n, Dense 0 (samePage spans a) m →
    Dense 0 (samePage spans b) n →
    let height s k := linesHeight (decide (d.vmsCfg.charHeightPixels = 0)) d.fontDefinition (samePage spans s) (k - 1)
    Beside (linesRows d r a.state.justPage (height a m)) (linesRows d r b.state.justPage (height b n))
  wide : ∀ a ∈ spans, a.state.justLine = .center → ∀ w, SpanWidth d.fontDefinition a w → w % signCellWidth d = 0
  high : ∀ a ∈ spans, a.state.justPage = .middle → ∀ f, FontOf d.fontDefinition a f → f.height.toNat % signCellHeight d = 0

/-- the boxes of two placed texts have no pixel in common -/
def BoxesApart (t : FontTable) (p q : Span × Nat × Nat) : Prop := ∀ w w' f f', SpanWidth t p.1 w → SpanWidth t q.1 w' →
  FontOf t p.1 f → FontOf t q.1 f' →
  Beside (p.2.1, p.2.1 + w) (q.2.1, q.2.1 + w') ∨ Beside (p.2.2, p.2.2 + f.height.toNat) (q.2.2, q.2.2 + f'.height.toNat)

/-- a text rectangle of a page, with the attributes in effect, its values, and the text rectangles after it -/
inductive SectionAt (d : Dms) : TextAttr → Option UInt8 → Rectangle → List Value → List (Rectangle × List Value) →
    TextAttr → Option UInt8 → Rectangle → List Value → List (Rectangle × List Value) → Prop
  | here {t sp rect ws more} : SectionAt d t sp rect ws more t sp rect ws more
  | later {t sp rect ws r us more t' sp' rect' ws' more'} :
      SectionAt d (ws.foldl (TextAttr.apply (signAttr d)) t) (ws.foldl spacingAfter sp) (opened d r) us more
        t' sp' rect' ws' more' →
      SectionAt d t sp rect ws ((r, us) :: more) t' sp' rect' ws' more'

/-- The pixel is not in any of the text rectangles, nor in color rectangles or graphics of their values (unless where these
are transparent). -/
def Uncovered (d : Dms) (i j : Nat) (more : List (Rectangle × List Value)) : Prop := ∀ w ∈ more,
  (∀ p o, Layered d d.vmsCfg.signWidthPixels.toNat d.vmsCfg.signHeightPixels.toNat p w.2 i j o → o = none) ∧
  ¬ (((opened d w.1).x.toNat - 1 ≤ i ∧ i < (opened d w.1).x.toNat - 1 + (opened d w.1).width.toNat) ∧
    (opened d w.1).y.toNat - 1 ≤ j ∧ j < (opened d w.1).y.toNat - 1 + (opened d w.1).height.toNat)

end Ntcip.Spec
