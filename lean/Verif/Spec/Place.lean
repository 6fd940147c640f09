import Verif.Spec.Layout
import Verif.Lemmas.Glyph
/-
Specification of the position of every text span of a text rectangle, and of the pixels it lights.
-/
namespace Ntcip.Spec

/-- spans of a line with one justification are numbered in order -/
def Ordered (spans : List Span) : Prop :=
  spans.Pairwise fun a b => a.state.justPage = b.state.justPage → a.state.lineNumber = b.state.lineNumber →
    a.state.justLine = b.state.justLine → a.state.spanNumber < b.state.spanNumber

/-- line numbers of the spans of every page justification have no gaps -/
def AllDense (spans : List Span) : Prop := ∀ s ∈ spans, ∃ n, Dense 0 (samePage spans s) n

/-- `n` pixels are before the span `s` on its line: the spans `pre`, and spacing -/
def Before (t : FontTable) (pre : List Span) (s : Span) (n : Nat) : Prop :=
  ∃ w, SpanWidth t s w ∧ LineWidth t none (pre ++ [s]) (n + w)

/-- left edge of a line of `total` pixels in a text rectangle -/
def lineLeft (r : Rectangle) (j : JustificationLine) (total : Nat) : Nat :=
  match j with
  | .center => r.x.toNat - 1 + (r.width.toNat - total) / 2
  | .right => r.x.toNat - 1 + (r.width.toNat - total)
  | _ => r.x.toNat - 1

/-- top edge of lines of `total` pixels in a text rectangle -/
def linesTop (r : Rectangle) (j : JustificationPage) (total : Nat) : Nat :=
  match j with
  | .middle => r.y.toNat - 1 + (r.height.toNat - total) / 2
  | .bottom => r.y.toNat - 1 + (r.height.toNat - total)
  | _ => r.y.toNat - 1

/-- the edge of a character cell at or before `x` -/
def cellEdge (c x : Nat) : Nat := x - x % c

/-- `x` is the left edge of the span `s`: that of its line, and what is before it on the line (centered
text starts at a character cell) -/
def AtX (d : Dms) (spans : List Span) (s : Span) (x : Nat) : Prop :=
  ∃ pre post n total, sameLine spans s = pre ++ s :: post ∧ Before d.fontDefinition pre s n ∧
    LineWidth d.fontDefinition none (sameLine spans s) total ∧ total ≤ s.state.textRectangle.width.toNat ∧
    x = if s.state.justLine = .center
      then cellEdge (signCellWidth d) (lineLeft s.state.textRectangle s.state.justLine total + n)
      else lineLeft s.state.textRectangle s.state.justLine total + n

/-- `y` is the top edge of the span `s`: its lower edge is that of its line (for text in the middle that of
a character cell) -/
def AtY (d : Dms) (spans : List Span) (s : Span) (y : Nat) : Prop :=
  ∃ f m total, FontOf d.fontDefinition s f ∧ Dense 0 (samePage spans s) m ∧
    total = linesHeight (decide (d.vmsCfg.charHeightPixels = 0)) d.fontDefinition (samePage spans s) (m - 1) ∧
    total ≤ s.state.textRectangle.height.toNat ∧
    y + f.height.toNat =
      let b := linesTop s.state.textRectangle s.state.justPage total +
        linesHeight (decide (d.vmsCfg.charHeightPixels = 0)) d.fontDefinition (samePage spans s) s.state.lineNumber
      if s.state.justPage = .middle then cellEdge (signCellHeight d) b else b

/-- the pixel `(i, j)` is lit by text at `(x, y)`, of the characters `es` with spacing `cs` in a font of height
`h` -/
def TextLit (es : List CharacterEntry) (cs h x y i j : Nat) : Prop :=
  ∃ before e after row col, es = before ++ e :: after ∧ row < h ∧ col < e.width.toNat ∧
    bit e.bitmap (row * e.width.toNat + col) = true ∧
    i = x + advance cs (before.map (·.width.toNat)) + (if 0 < (before.map (·.width.toNat)).sum then cs else 0) + col ∧
    j = y + row

/-- the span `s` lights the pixel `(i, j)` -/
def Lights (d : Dms) (spans : List Span) (s : Span) (i j : Nat) : Prop :=
  ∃ x y f es, AtX d spans s x ∧ AtY d spans s y ∧ FontOf d.fontDefinition s f ∧ Defined f s.str es ∧
    TextLit es (charSpacing s f) f.height.toNat x y i j

/-- `b` is `a` with the spans `ss` drawn in their foreground colors, later spans over earlier ones -/
structure TextOn (d : Dms) (spans ss : List Span) (a b : Raster) : Prop where
  width : b.width = a.width
  height : b.height = a.height
  lit : ∀ l1 s l2 i j, ss = l1 ++ s :: l2 → Lights d spans s i j → (∀ s' ∈ l2, ¬ Lights d spans s' i j) →
    b.px i j = s.state.colorCtx.foregroundRgb
  unlit : ∀ i j, (∀ s ∈ ss, ¬ Lights d spans s i j) → b.px i j = a.px i j

end Ntcip.Spec
