import Verif.Spec.Recolor
import Verif.Spec.Sequel
/-
Specification of tags that say the same in other words (C108).
-/
namespace Ntcip.Spec

/-- What a color tag stands for.  A tag without a color gives the default color `dflt`; where graphics are drawn (`g`), only on
24-bit signs: elsewhere the default color is no color for the pixels of 1-bit graphics (C38). -/
def shownColor (d : Dms) (g : Bool) (dflt : Rgb) : Option Color → Option Rgb
  | some c => colorValue d.multiCfg.colorScheme (signForeground d) (signBackground d) c
  | none => if g = true ∧ d.multiCfg.colorScheme ≠ .color24Bit then none else some dflt

/-- the same color, or colors that the sign shows alike -/
def SameShown (d : Dms) (g : Bool) (dflt : Rgb) (a b : Option Color) : Prop :=
  a = b ∨ ∃ x, shownColor d g dflt a = some x ∧ shownColor d g dflt b = some x

/-- the same version ID, or each is either left out or the one asked for -/
def SameVersion (id : Option UInt16) (a b : Option UInt16) : Prop :=
  a = b ∨ ((a = none ∨ a = id) ∧ (b = none ∨ b = id))

/-- how far a rectangle from coordinate `x` reaches on a side of `n` pixels, when its size is given as `w` -/
def extent (n x w : Nat) : Nat := if w = 0 then n - (x - 1) else w

/-- the same rectangle on the sign, its size given or left as 0 (to the edge) -/
structure SameRect (d : Dms) (r r' : Rectangle) : Prop where
  x : r'.x = r.x
  y : r'.y = r.y
  width : extent d.vmsCfg.signWidthPixels.toNat r'.x.toNat r'.width.toNat =
    extent d.vmsCfg.signWidthPixels.toNat r.x.toNat r.width.toNat
  height : extent d.vmsCfg.signHeightPixels.toNat r'.y.toNat r'.height.toNat =
    extent d.vmsCfg.signHeightPixels.toNat r.y.toNat r.height.toNat

/-- Values that say the same on a sign.  `g`: are graphics drawn? -/
inductive Synonym (d : Dms) (g : Bool) : Value → Value → Prop
  /-- every value says what it says -/
  | refl (v) : Synonym d g v v
  /-- colors shown alike -/
  | foreground {a b} : SameShown d g (signForeground d) a b → Synonym d g (.colorForeground a) (.colorForeground b)
  | background {a b} : SameShown d g (signBackground d) a b → Synonym d g (.colorBackground a) (.colorBackground b)
  | page {a b} : SameShown d g (signBackground d) a b → Synonym d g (.pageBackground a) (.pageBackground b)
  /-- a rectangle with its size written out or not, in a color shown alike -/
  | fill {r r' c c'} : SameRect d r r' → SameShown d g (signForeground d) (some c) (some c') →
      Synonym d g (.colorRectangle r c) (.colorRectangle r' c')
  | textRect {r r'} : SameRect d r r' → Synonym d g (.textRectangle r) (.textRectangle r')
  /-- the default font by its number or not, with its version ID or without -/
  | font {a b} : (a.getD (d.multiCfg.defaultFont, none)).1 = (b.getD (d.multiCfg.defaultFont, none)).1 →
      SameVersion ((d.fontDefinition.find? fun f => f.number == (a.getD (d.multiCfg.defaultFont, none)).1).map Font.versionId)
        (a.getD (d.multiCfg.defaultFont, none)).2 (b.getD (d.multiCfg.defaultFont, none)).2 →
      Synonym d g (.font a) (.font b)
  /-- a graphic with its place or without, with its version ID or without -/
  | graphic {n a b} : (a.getD (1, 1, none)).1 = (b.getD (1, 1, none)).1 → (a.getD (1, 1, none)).2.1 = (b.getD (1, 1, none)).2.1 →
      SameVersion ((d.graphicDefinition.find? fun f => f.number == n).map Graphic.versionId)
        (a.getD (1, 1, none)).2.2 (b.getD (1, 1, none)).2.2 →
      Synonym d g (.graphic n a) (.graphic n b)
  /-- the default justification by its name or not -/
  | justLine {a b} : d.multiCfg.defaultJustificationLine ≠ .other → d.multiCfg.defaultJustificationLine ≠ .full →
      a.getD d.multiCfg.defaultJustificationLine = b.getD d.multiCfg.defaultJustificationLine →
      Synonym d g (.justificationLine a) (.justificationLine b)
  | justPage {a b} : d.multiCfg.defaultJustificationPage ≠ .other →
      a.getD d.multiCfg.defaultJustificationPage = b.getD d.multiCfg.defaultJustificationPage →
      Synonym d g (.justificationPage a) (.justificationPage b)
  /-- the default times by their numbers or not -/
  | times {on off on' off'} : on.getD d.multiCfg.defaultPageOnTime = on'.getD d.multiCfg.defaultPageOnTime →
      off.getD d.multiCfg.defaultPageOffTime = off'.getD d.multiCfg.defaultPageOffTime →
      Synonym d g (.pageTime on off) (.pageTime on' off')
  /-- a character by its number, where the sign has the tag -/
  | char {n : UInt16} {c : Char} : n.toNat ≠ 0 → c.toNat = n.toNat → d.multiCfg.supportedMultiTags .hc = true →
      Synonym d g (.hexadecimalCharacter n) (.text [c])
  | char' {n : UInt16} {c : Char} : n.toNat ≠ 0 → c.toNat = n.toNat → d.multiCfg.supportedMultiTags .hc = true →
      Synonym d g (.text [c]) (.hexadecimalCharacter n)

/-- items of two messages that read the same (or fail alike), or as synonyms -/
def SameItem (d : Dms) (g : Bool) (s s' : Str) : Prop :=
  tryFrom s' = tryFrom s ∨
    ∃ v w, tryFrom s = .ok (.ok v) ∧ tryFrom s' = .ok (.ok w) ∧ Synonym d g v w

/-- the same error, where each names the tag as written in its message -/
inductive SameError (d : Dms) (g : Bool) : SyntaxError → SyntaxError → Prop
  | refl (e) : SameError d g e e
  | tag {v w} : Synonym d g v w → SameError d g (.unsupportedTag v.display) (.unsupportedTag w.display)
  | value {v w} : Synonym d g v w → SameError d g (.unsupportedTagValue v.display) (.unsupportedTagValue w.display)

/-- the same page, or the same error -/
def SameResult (d : Dms) (g : Bool) : Except SyntaxError Page → Except SyntaxError Page → Prop
  | .ok p, .ok q => q = p
  | .error e, .error f => SameError d g e f
  | _, _ => False

end Ntcip.Spec
