import Verif.Spec.Accept
import Verif.Spec.Grammar
import Verif.Props.Layout
import Verif.Props.Case
/-
Specification of the faults of a message that the errors of the renderer tell of.
-/
namespace Ntcip.Spec

/-- the sign has pixels, and less than 65535 rows and columns -/
structure SizeOk (d : Dms) : Prop where
  width : d.vmsCfg.signWidthPixels.toNat < 65535
  height : d.vmsCfg.signHeightPixels.toNat < 65535
  size : ¬ (d.vmsCfg.signWidthPixels.toNat = 0 ∧ d.vmsCfg.signHeightPixels.toNat = 0)

/-- names of the MULTI tags -/
def tagNames : List (List Char) := [c!"nl", c!"np", c!"fo", c!"jl", c!"jp", c!"pt", c!"pb", c!"cf", c!"cr", c!"tr", c!"cb",
  c!"sc", c!"hc", c!"fl", c!"mv", c!"ms", c!"f", c!"g", c!"/sc", c!"/fl", c!"/ms"]

/-- the tag has the name of a MULTI tag (the feed tag `fe` is not one of the library) -/
def KnownTag (x : Str) : Prop := NameIn tagNames x ∧ ¬ NameIn [c!"fe"] x

/-- An item that is not valid: a bracket without its partner, a tag with an unknown name, a tag with wrong parameters,
or text with a character that can not be shown by any sign -/
inductive WrongItem : Str → SyntaxError → Prop
  | bracket {s} : s.head? = some '[' ∧ s.getLast? ≠ some ']' ∨ s.head? = some ']' → s ≠ c!"[[" → s ≠ c!"]]" →
      WrongItem s (.unsupportedTag s)
  | name {x} : ¬ KnownTag x → WrongItem ('[' :: (x ++ [']'])) (.unsupportedTag x)
  | parameters {x} : KnownTag x → (∀ v, ¬ Denotes ('[' :: (x ++ [']'])) v) →
      WrongItem ('[' :: (x ++ [']'])) (.unsupportedTagValue x)
  | character {s c} : s.head? ≠ some '[' → s.head? ≠ some ']' → c ∈ s → ¬ (1 ≤ c.toNat ∧ c.toNat ≤ 0xFF) →
      WrongItem s (.other "Invalid code point")

/-- The first item of a page that is not valid, or has a tag the sign does not support -/
inductive ItemFault (d : Dms) : List Str → SyntaxError → Prop
  | bad {s ss e} : WrongItem s e → ItemFault d (s :: ss) e
  | tag {s ss v t} : Denotes s v → v.tag = some t → d.multiCfg.supportedMultiTags t = false →
      ItemFault d (s :: ss) (.unsupportedTag v.display)
  | later {s ss v e} : Denotes s v → v ≠ .newPage →
      (∀ t, v.tag = some t → d.multiCfg.supportedMultiTags t = true) → ItemFault d ss e → ItemFault d (s :: ss) e

/-- A value the sign can not show -/
inductive ValueFault (d : Dms) : Value → SyntaxError → Prop
  | value {v} : (∀ n pos, v ≠ .graphic n pos) → ¬ ValueOk d v → ValueFault d v (.unsupportedTagValue v.display)
  | noGraphic {n pos} : (∀ g ∈ d.graphicDefinition, g.number ≠ n) → ValueFault d (.graphic n pos) (.graphicNotDefined n)
  | graphicId {n x y id g} : g ∈ d.graphicDefinition → g.number = n → id ≠ g.versionId →
      ValueFault d (.graphic n (some (x, y, some id))) .graphicID
  | graphicBig {n pos g} : GraphicOf d n pos g →
      d.vmsCfg.signWidthPixels.toNat < (corner pos).1 + g.width.toNat ∨
        d.vmsCfg.signHeightPixels.toNat < (corner pos).2 + g.height.toNat →
      ValueFault d (.graphic n pos) (.other "Graphic too big")

/-- Texts that can not be drawn in the rectangle -/
inductive TextFault (d : Dms) (rect : Rectangle) (spans : List Span) : SyntaxError → Prop
  | noFont {s} : s ∈ spans → (∀ f ∈ d.fontDefinition, f.number ≠ s.state.fontNum) →
      TextFault d rect spans (.fontNotDefined s.state.fontNum)
  | version {s f v} : s ∈ spans → f ∈ d.fontDefinition → f.number = s.state.fontNum →
      s.state.fontVersionId = some v → v ≠ f.versionId → TextFault d rect spans .fontVersionID
  | character {s f c} : s ∈ spans → FontOf d.fontDefinition s f → c ∈ s.str →
      (∀ e ∈ f.characters, e.number.toNat ≠ c.toNat) → TextFault d rect spans (.characterNotDefined c)
  | conflict {i a b} : spans[i]? = some a → spans[i + 1]? = some b → Backwards a b →
      TextFault d rect spans .tagConflict
  | tooWide {s n} : s ∈ spans → LineWidth d.fontDefinition none (sameLine spans s) n → rect.width.toNat < n →
      TextFault d rect spans .textTooBig
  | tooHigh {s n} : s ∈ spans → Dense 0 (samePage spans s) n → rect.height.toNat <
        linesHeight (decide (d.vmsCfg.charHeightPixels = 0)) d.fontDefinition (samePage spans s) (n - 1) →
      TextFault d rect spans .textTooBig

/-- The lines of some text are not numbered without gaps (they are counted again by `offset_vert`) -/
def Gaps (spans : List Span) : Prop := ∃ s ∈ spans, ∀ n, ¬ Dense 0 (samePage spans s) n

/-- a property of some text rectangle of a page -/
inductive SomeSection (d : Dms) (P : TextAttr → Option UInt8 → Rectangle → List Value → Prop) :
    TextAttr → Option UInt8 → Rectangle → List Value → List (Rectangle × List Value) → Prop
  | here {t sp rect vs more} : P t sp rect vs → SomeSection d P t sp rect vs more
  | later {t sp rect vs r ws rest} :
      SomeSection d P (vs.foldl (TextAttr.apply (signAttr d)) t) (vs.foldl spacingAfter sp) (opened d r) ws rest →
      SomeSection d P t sp rect vs ((r, ws) :: rest)

/-- The page that begins at `ss` has a fault, of which the error tells; `t` are the text attributes before the page -/
inductive PageFault (d : Dms) (t : TextAttr) (ss : List Str) : SyntaxError → Prop
  | item {e} : ItemFault d ss e → PageFault d t ss e
  | value {vs rest b v e} : TakePage ss vs rest b → v ∈ vs → ValueFault d v e → PageFault d t ss e
  | rects {vs rest b} : TakePage ss vs rest b → 50 ≤ (sections vs).2.length →
      PageFault d t ss (.other "Too many text rectangles")
  | text {vs rest b e} : TakePage ss vs rest b →
      SomeSection d (fun t sp rect ws => TextFault d rect (layoutOf d t sp rect ws) e)
        t none (signRect d) (sections vs).1 (sections vs).2 → PageFault d t ss e

/-- Some text rectangle of the page is not in order, and has lines that are not numbered without gaps -/
def PageGaps (d : Dms) (t : TextAttr) (ss : List Str) : Prop := ∃ vs rest b, TakePage ss vs rest b ∧
  SomeSection d (fun t sp rect ws => ¬ Tidy (signAttr d) t true true ws ∧ Gaps (layoutOf d t sp rect ws))
    t none (signRect d) (sections vs).1 (sections vs).2

end Ntcip.Spec
