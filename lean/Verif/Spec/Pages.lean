import Verif.Model.Render
import Verif.Lemmas.Color
/-
Specification of the sequence of pages of a message, in terms of its values.
-/
namespace Ntcip.Spec

/-- Every item of a message is valid: the items `ss` have the values `vs` -/
inductive Parses : List Str → List Value → Prop
  | nil : Parses [] []
  | cons {s v ss vs} : tryFrom s = .ok (.ok v) → Parses ss vs → Parses (s :: ss) (v :: vs)

/-- The values of each page: cut at the `[np]` tags -/
def splitPages : List Value → List (List Value)
  | [] => [[]]
  | v :: vs =>
    if v = .newPage then [] :: splitPages vs
    else match splitPages vs with
      | p :: ps => (v :: p) :: ps
      | [] => [[v]]

/-- Page times (on, off) after a page: those of its last `[pt]` tag, where a missing time means
the default; unchanged without such a tag. -/
def pageTimes (dflt cur : UInt8 × UInt8) (page : List Value) : UInt8 × UInt8 :=
  page.foldl (fun cur v => match v with
    | .pageTime on off => (on.getD dflt.1, off.getD dflt.2)
    | _ => cur) cur

/-- Background color after a page: that of its last `[cb]` or `[pb]` tag -/
def background (dflt cur : Color) (page : List Value) : Color :=
  page.foldl (fun cur v => match v with
    | .colorBackground c => c.getD dflt
    | .pageBackground c => c.getD dflt
    | _ => cur) cur

/-- page times (on, off) and background color -/
abbrev PageAttr := (UInt8 × UInt8) × Color

/-- What is shown: for each page an ON page (`true`) for its on-time, then, when its off-time is not
zero, an OFF page (`false`) for this time, with the background color of the page.  Page times and
background color carry over to the next page. -/
def schedule (dflt : PageAttr) : PageAttr → List (List Value) → List (Bool × Nat × Color)
  | _, [] => []
  | cur, p :: ps =>
    let t := pageTimes dflt.1 cur.1 p
    let c := background dflt.2 cur.2 p
    (true, t.1.toNat, c) ::
      ((if t.2.toNat > 0 then [(false, t.2.toNat, c)] else []) ++ schedule dflt (t, c) ps)

/-- default foreground color of a sign: of the MULTI configuration on color signs, otherwise of the LEDs -/
def signForeground (d : Dms) : Rgb :=
  match d.multiCfg.colorScheme with
  | .monochrome1Bit => d.vmsCfg.monoForeground
  | .monochrome8Bit => d.vmsCfg.monoForeground
  | _ => configRgb d.multiCfg.defaultForegroundRgb

/-- default background color of a sign -/
def signBackground (d : Dms) : Rgb :=
  match d.multiCfg.colorScheme with
  | .monochrome1Bit => d.vmsCfg.monoBackground
  | .monochrome8Bit => d.vmsCfg.monoBackground
  | _ => configRgb d.multiCfg.defaultBackgroundRgb

/-- the colors of a sign -/
def signCtx (d : Dms) : ColorCtx :=
  ⟨d.multiCfg.colorScheme, signForeground d, .ofRgb (signForeground d), signBackground d, .ofRgb (signBackground d)⟩

theorem foregroundDefault_eq (d : Dms) : d.foregroundDefaultRgb = signForeground d := by
  unfold Dms.foregroundDefaultRgb signForeground; rw [← toRgb_eq]; cases d.multiCfg.colorScheme <;> rfl

theorem backgroundDefault_eq (d : Dms) : d.backgroundDefaultRgb = signBackground d := by
  unfold Dms.backgroundDefaultRgb signBackground; rw [← toRgb_eq]; cases d.multiCfg.colorScheme <;> rfl

theorem colorCtx_eq (d : Dms) : d.colorCtx = signCtx d := by
  unfold Dms.colorCtx; rw [foregroundDefault_eq, backgroundDefault_eq]; rfl

/-- the page attributes of a sign -/
def signPage (d : Dms) : PageAttr :=
  ((d.multiCfg.defaultPageOnTime, d.multiCfg.defaultPageOffTime), .ofRgb (signBackground d))

/-- how a background color looks on a sign -/
def backgroundRgb (d : Dms) (c : Color) : Rgb :=
  (colorValue d.multiCfg.colorScheme (signForeground d) (signBackground d) c).getD (signBackground d)

/-- Attributes of text which stay in effect for the following text, also on later pages -/
structure TextAttr where
  fontNum : UInt8
  fontVersionId : Option UInt16
  justPage : JustificationPage
  justLine : JustificationLine
  charSpacing : Option UInt8
  foreground : Color
  deriving DecidableEq, Repr

/-- Effect of one value on the attributes; `dflt` are the attributes of the sign -/
def TextAttr.apply (dflt a : TextAttr) : Value → TextAttr
  | .font none => { a with fontNum := dflt.fontNum, fontVersionId := dflt.fontVersionId }
  | .font (some (n, vid)) => { a with fontNum := n, fontVersionId := vid }
  | .justificationLine j => { a with justLine := j.getD dflt.justLine }
  | .justificationPage j => { a with justPage := j.getD dflt.justPage }
  | .spacingCharacter n => { a with charSpacing := some n }
  | .spacingCharacterEnd => { a with charSpacing := none }
  | .colorForeground c => { a with foreground := c.getD dflt.foreground }
  | _ => a

/-- the attributes in a render state -/
def textAttr (rs : RenderState) : TextAttr :=
  ⟨rs.fontNum, rs.fontVersionId, rs.justPage, rs.justLine, rs.charSpacing, rs.colorCtx.fgCurrent⟩

/-- the default attributes of a sign -/
def signAttr (d : Dms) : TextAttr :=
  ⟨d.multiCfg.defaultFont, none, d.multiCfg.defaultJustificationPage,
   d.multiCfg.defaultJustificationLine, none, .ofRgb (signForeground d)⟩

/-- is an ON page to be rendered? -/
def isOn : PageState → Bool
  | .on _ => true
  | _ => false

/-- Calling `next` repeatedly gives the items `xs`, each marked as ON page or not, and ends in the
state `pg'` -/
inductive Steps (d : Dms) : Pages → List (Bool × Except SyntaxError Page) → Pages → Prop
  | nil {pg} : Steps d pg [] pg
  | cons {pg pg1 pg' x xs} : Pages.next d pg = .ok (some x, pg1) → Steps d pg1 xs pg' →
      Steps d pg ((isOn pg.pageState, x) :: xs) pg'

/-- The pages of the message are exactly `xs` -/
def Yields (d : Dms) (ms : Str) (xs : List (Bool × Except SyntaxError Page)) : Prop :=
  ∃ pg', Steps d (Pages.new d ms) xs pg' ∧ (Pages.next d pg' = .ok (none, pg'))

/-- no item is an error -/
def NoError (xs : List (Bool × Except SyntaxError Page)) : Prop := ∀ x ∈ xs, ∃ p, x.2 = .ok p

end Ntcip.Spec
