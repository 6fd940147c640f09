import Verif.Spec.Pages
/-
Specification of pages that differ in their colors only (C76).
-/
namespace Ntcip

/-- both succeed with related results, or both panic alike -/
def Res.Rel {α β : Type} (R : α → β → Prop) : Res α → Res β → Prop
  | .ok a, .ok b => R a b
  | .panic p, .panic q => p = q
  | _, _ => False

/-- both succeed with related results, or both fail alike -/
def Except.Rel {ε α β : Type} (R : α → β → Prop) : Except ε α → Except ε β → Prop
  | .ok a, .ok b => R a b
  | .error e, .error f => e = f
  | _, _ => False

/-- pairwise related lists -/
inductive All2 {α β : Type} (R : α → β → Prop) : List α → List β → Prop
  | nil : All2 R [] []
  | cons {a b as bs} : R a b → All2 R as bs → All2 R (a :: as) (b :: bs)

namespace Spec

/-- signs that are alike but for their colors (color scheme, default colors, colors of the LEDs), as far as it matters for
messages -/
structure SameButColors (d d' : Dms) : Prop where
  fonts : d'.fontDefinition = d.fontDefinition
  graphics : d'.graphicDefinition = d.graphicDefinition
  charWidth : d'.vmsCfg.charWidthPixels = d.vmsCfg.charWidthPixels
  charHeight : d'.vmsCfg.charHeightPixels = d.vmsCfg.charHeightPixels
  width : d'.vmsCfg.signWidthPixels = d.vmsCfg.signWidthPixels
  height : d'.vmsCfg.signHeightPixels = d.vmsCfg.signHeightPixels
  font : d'.multiCfg.defaultFont = d.multiCfg.defaultFont
  justLine : d'.multiCfg.defaultJustificationLine = d.multiCfg.defaultJustificationLine
  justPage : d'.multiCfg.defaultJustificationPage = d.multiCfg.defaultJustificationPage
  pageOn : d'.multiCfg.defaultPageOnTime = d.multiCfg.defaultPageOnTime
  pageOff : d'.multiCfg.defaultPageOffTime = d.multiCfg.defaultPageOffTime
  tags : d'.multiCfg.supportedMultiTags = d.multiCfg.supportedMultiTags

/-- `r'` has the size of `r`, and pixels at the same place are related by `P` -/
structure Recolored (P : Rgb → Rgb → Prop) (r r' : Raster) : Prop where
  width : r'.width = r.width
  height : r'.height = r.height
  pixel : ∀ i j, P (r.px i j) (r'.px i j)

/-- pages of the same time, recolored -/
def RecoloredPage (P : Rgb → Rgb → Prop) (p p' : Page) : Prop :=
  p'.durationDs = p.durationDs ∧ Recolored P p.raster p'.raster

/-- The first `k` results for a message on two signs: as many, with the same errors, and pages of the same times and
sizes, whose pixels are related by `P`; or both panic. -/
def RecoloredRun (P : Rgb → Rgb → Prop) (d d' : Dms) (ms : Str) (k : Nat) : Prop :=
  Res.Rel (fun p q => All2 (Except.Rel (RecoloredPage P)) p.1 q.1)
    (Pages.run d k (Pages.new d ms)) (Pages.run d' k (Pages.new d' ms))

/-- both are the default foreground color of their sign, or both the default background color -/
def BothDefault (d d' : Dms) (c c' : Rgb) : Prop :=
  (c = signForeground d ∧ c' = signForeground d') ∨ (c = signBackground d ∧ c' = signBackground d')

/-- both are what their sign shows for the same color -/
def SameColor (d d' : Dms) (c c' : Rgb) : Prop :=
  ∃ x, colorValue d.multiCfg.colorScheme (signForeground d) (signBackground d) x = some c ∧
    colorValue d'.multiCfg.colorScheme (signForeground d') (signBackground d') x = some c'

/-- the value sets or shows colors of its own -/
def Colored : Value → Prop
  | .colorBackground _ | .colorForeground _ | .colorRectangle _ _ | .pageBackground _ | .graphic _ _ => True
  | _ => False

end Spec
end Ntcip
