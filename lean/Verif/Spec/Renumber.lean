import Verif.Spec.Sequel
/-
Specification of signs with other numbers and names for the same fonts and graphics (C112).
-/
namespace Ntcip.Spec

/-- New numbers and names for fonts and graphics.  Different numbers stay different. -/
structure Numbering where
  font : UInt8 → UInt8
  graphic : UInt8 → UInt8
  fontName : Str → Str
  graphicName : Str → Str
  font_inj : ∀ a b, font a = font b → a = b
  graphic_inj : ∀ a b, graphic a = graphic b → a = b

namespace Numbering

/-- the same font with its new number and name -/
def ofFont (n : Numbering) (f : Font) : Font := { f with number := n.font f.number, name := n.fontName f.name }

/-- the same graphic with its new number and name -/
def ofGraphic (n : Numbering) (g : Graphic) : Graphic :=
  { g with number := n.graphic g.number, name := n.graphicName g.name }

/-- the sign with new numbers and names -/
def sign (n : Numbering) (d : Dms) : Dms :=
  { d with fontDefinition := d.fontDefinition.map n.ofFont, graphicDefinition := d.graphicDefinition.map n.ofGraphic,
           multiCfg := { d.multiCfg with defaultFont := n.font d.multiCfg.defaultFont } }

/-- `b` instead of `a`, and the other way round -/
def swap (a b x : UInt16) : UInt16 := if x = a then b else if x = b then a else x

/-- the version ID in a tag for a font: that of the font is changed to the one with the new number, so that right IDs stay
right and wrong ones stay wrong -/
def fontId (n : Numbering) (d : Dms) (k : UInt8) (id : Option UInt16) : Option UInt16 :=
  match d.fontDefinition.find? fun f => f.number == k with
  | some f => id.map (swap f.versionId (n.ofFont f).versionId)
  | none => id

/-- the version ID in a tag for a graphic -/
def graphicId (n : Numbering) (d : Dms) (k : UInt8) (id : Option UInt16) : Option UInt16 :=
  match d.graphicDefinition.find? fun g => g.number == k with
  | some g => id.map (swap g.versionId (n.ofGraphic g).versionId)
  | none => id

/-- the same tag with new numbers -/
def value (n : Numbering) (d : Dms) : Value → Value
  | .font (some (k, id)) => .font (some (n.font k, n.fontId d k id))
  | .graphic k none => .graphic (n.graphic k) none
  | .graphic k (some (x, y, id)) => .graphic (n.graphic k) (some (x, y, n.graphicId d k id))
  | v => v

/-- the same error with new numbers -/
def error (n : Numbering) : SyntaxError → SyntaxError
  | .fontNotDefined k => .fontNotDefined (n.font k)
  | .graphicNotDefined k => .graphicNotDefined (n.graphic k)
  | e => e

/-- an item that reads as the other with new numbers -/
def Item (n : Numbering) (d : Dms) (s s' : Str) : Prop :=
  tryFrom s' = match tryFrom s with
    | .panic p => .panic p
    | .ok (.error e) => .ok (.error (n.error e))
    | .ok (.ok v) => .ok (.ok (n.value d v))

/-- the same error, where each names the number or tag as written in its message -/
inductive SameError (n : Numbering) (d : Dms) : SyntaxError → SyntaxError → Prop
  | number (e) : SameError n d e (n.error e)
  | tag (v : Value) : SameError n d (.unsupportedTag v.display) (.unsupportedTag (n.value d v).display)

/-- the same page, or the same error -/
def SameResult (n : Numbering) (d : Dms) : Except SyntaxError Page → Except SyntaxError Page → Prop
  | .ok p, .ok q => q = p
  | .error e, .error f => SameError n d e f
  | _, _ => False

end Numbering
end Ntcip.Spec
