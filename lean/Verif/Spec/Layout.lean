import Verif.Props.Text
import Verif.Model.Render
import Verif.Spec.Rects
/-
Specification of the layout of text spans: widths, spacings, lines.
-/
namespace Ntcip.Spec

/-- The font of a span: the one with its number, whose version ID must be the requested one -/
def FontOf (t : FontTable) (s : Span) (f : Font) : Prop :=
  FontTable.font t s.state.fontNum = some f ∧ ∀ v, s.state.fontVersionId = some v → v = f.versionId

/-- character spacing: that of the `[sc]` tag in effect, otherwise of the font -/
def charSpacing (s : Span) (f : Font) : Nat := (s.state.charSpacing.getD f.charSpacing).toNat

/-- `w` is the width of the span -/
def SpanWidth (t : FontTable) (s : Span) (w : Nat) : Prop :=
  ∃ f es, FontOf t s f ∧ Defined f s.str es ∧ w = advance (charSpacing s f) (es.map (·.width.toNat))

/-- `g` is the space between the spans `p` and `s`: the spacing of the `[sc]` tag in effect, otherwise
the average of both spacings, rounded up -/
def Gap (t : FontTable) (p s : Span) (g : Nat) : Prop :=
  match s.state.charSpacing with
  | some c => g = c.toNat
  | none => ∃ fp fs, (p.state.charSpacing = none → FontOf t p fp) ∧ FontOf t s fs ∧
      g = (charSpacing p fp + charSpacing s fs + 1) / 2

/-- `n` is the width of the spans `ss` side by side, after the span `prev` -/
inductive LineWidth (t : FontTable) : Option Span → List Span → Nat → Prop
  | nil {prev} : LineWidth t prev [] 0
  | first {s ss w n} : SpanWidth t s w → LineWidth t (some s) ss n → LineWidth t none (s :: ss) (w + n)
  | next {p s ss g w n} : Gap t p s g → SpanWidth t s w → LineWidth t (some s) ss n →
      LineWidth t (some p) (s :: ss) (g + w + n)

/-- the spans on the same line as `s`, with the same justification -/
def sameLine (spans : List Span) (s : Span) : List Span :=
  spans.filter fun x => x.state.justPage = s.state.justPage ∧ x.state.lineNumber = s.state.lineNumber ∧
    x.state.justLine = s.state.justLine

/-- the spans with the same page justification as `s` -/
def samePage (spans : List Span) (s : Span) : List Span :=
  spans.filter fun x => x.state.justPage = s.state.justPage

/-- a value of the font of a span (0 without font) -/
def ofFont (t : FontTable) (v : Font → UInt8) (s : Span) : Nat :=
  match FontTable.font t s.state.fontNum with
  | some f => (v f).toNat
  | none => 0

/-- the largest number of a list, 0 for the empty list -/
def largest (l : List Nat) : Nat := l.foldr max 0

/-- the spans on line `i` -/
def onLine (ss : List Span) (i : Nat) : List Span := ss.filter fun s => s.state.lineNumber = i

/-- height of line `i` of the spans: that of its highest font -/
def lineHeight (t : FontTable) (ss : List Span) (i : Nat) : Nat :=
  largest ((onLine ss i).map (ofFont t (·.height)))

/-- line spacing of the fonts of line `i`: the largest one -/
def fontLineSpacing (t : FontTable) (ss : List Span) (i : Nat) : Nat :=
  largest ((onLine ss i).map (ofFont t (·.lineSpacing)))

/-- spacing of the `[nl]` tag in effect on line `i` -/
def tagLineSpacing (ss : List Span) (i : Nat) : Option Nat :=
  (onLine ss i).findSome? fun s => s.state.lineSpacing.map UInt8.toNat

/-- space between the lines `i` and `i + 1`: that of the `[nl]` tag, otherwise the average of the spacings
of the fonts of both lines, rounded up; without spacing on signs with character or line matrix -/
def lineSpace (full : Bool) (t : FontTable) (ss : List Span) (i : Nat) : Nat :=
  if full then
    (tagLineSpacing ss (i + 1)).getD ((fontLineSpacing t ss i + fontLineSpacing t ss (i + 1) + 1) / 2)
  else 0

/-- height of the lines up to and including line `n` -/
def linesHeight (full : Bool) (t : FontTable) (ss : List Span) : Nat → Nat
  | 0 => lineHeight t ss 0
  | n + 1 => linesHeight full t ss n + lineSpace full t ss n + lineHeight t ss (n + 1)

/-- line numbers of the spans count up from `k`, without gaps -/
inductive Dense : Nat → List Span → Nat → Prop
  | nil {k} : Dense k [] k
  | old {k s ss n} : s.state.lineNumber < k → Dense k ss n → Dense k (s :: ss) n
  | new {k s ss n} : s.state.lineNumber = k → Dense (k + 1) ss n → Dense k (s :: ss) n

end Ntcip.Spec
