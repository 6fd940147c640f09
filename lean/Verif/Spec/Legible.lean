import Verif.Spec.Order
import Verif.Spec.Room
import Verif.Spec.Narrow
/-
Specification of messages that can be read off their pages: texts which are seen, in fonts of characters which differ.
-/
namespace Ntcip.Spec

/-- two texts have characters of the same widths, one by one, in each font -/
def SameWidths (t : FontTable) (a b : Str) : Prop := ∀ f ∈ t, ∀ es es', Defined f a es → Defined f b es' →
  es.map (·.width.toNat) = es'.map (·.width.toNat)

/-- the same value, or another text of the same widths -/
inductive Retyped (t : FontTable) : Value → Value → Prop
  | same {v} : Retyped t v v
  | text {a b} : SameWidths t a b → Retyped t (.text a) (.text b)

/-- characters of a font with the same width and the same pixels are the same character -/
def Legible (f : Font) : Prop := ∀ e ∈ f.characters, ∀ e' ∈ f.characters, e.number.toNat ≠ 0 → e'.number.toNat ≠ 0 →
  e.width.toNat = e'.width.toNat →
  (∀ row col, row < f.height.toNat → col < e.width.toNat →
    bit e.bitmap (row * e.width.toNat + col) = bit e'.bitmap (row * e.width.toNat + col)) →
  e.number.toNat = e'.number.toNat

/-- Pages of texts that are seen: without text rectangles, color rectangles and graphics, with texts in order that have
room, and in colors other than that of the background of the page; `t` and `p` are the attributes before. -/
def Seen (d : Dms) : TextAttr → PageAttr → List (List Value) → Prop
  | _, _, [] => True
  | t, p, vs :: rest =>
    let times := pageTimes (signPage d).1 p.1 vs
    let bg := background (signPage d).2 p.2 vs
    (∀ v ∈ vs, isDrawing v = false ∧ ∀ r, v ≠ .textRectangle r) ∧ Tidy (signAttr d) t true true vs ∧
    Roomy d (signRect d) (layoutOf d t none (signRect d) vs) ∧
    (∀ x ∈ pieces (signAttr d) t none 0 true vs, foregroundRgb d x.attr.foreground ≠ backgroundRgb d bg) ∧
    Seen d (vs.foldl (TextAttr.apply (signAttr d)) t) (times, bg) rest

end Ntcip.Spec
