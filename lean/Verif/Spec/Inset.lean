import Verif.Spec.Compose
/-
Specification of a message of a small sign, shown on a part of a larger sign.
-/
namespace Ntcip.Spec

/-- the sign with another size: in pixels, and by the settings `c` of its face -/
def resized (d : Dms) (W H : UInt16) (c : SignCfg) : Dms :=
  { d with signCfg := c, vmsCfg := { d.vmsCfg with signWidthPixels := W, signHeightPixels := H } }

/-- a rectangle without width or height gets those that it has on the sign -/
def explicit (d : Dms) : Value → Value
  | .textRectangle r => .textRectangle (opened d r)
  | .colorRectangle r c => .colorRectangle (opened d r) c
  | v => v

/-- the values, with a text rectangle of the size of the sign at the beginning of each page -/
def framed (d : Dms) (vs : List Value) : List Value :=
  .textRectangle (signRect d) ::
    vs.flatMap fun v => if v = .newPage then [.newPage, .textRectangle (signRect d)] else [explicit d v]

/-- the larger raster `b`, of `W`×`H` pixels, has the pixels of `a` in its upper left corner, and the color `c` elsewhere -/
structure InCorner (W H : Nat) (c : Rgb) (a b : Raster) : Prop where
  width : b.width = W
  height : b.height = H
  inside : ∀ i j, i < a.width → j < a.height → b.px i j = a.px i j
  outside : ∀ i j, ¬ (i < a.width ∧ j < a.height) → b.px i j = c

/-- What is given for a message on the larger sign `d` of `W`×`H` pixels (`ys`), by what is given on the small one (`xs`):
the ON pages have the same time and are in the upper left corner, with the background color of their page elsewhere; the
OFF pages are the same.  `c` is the background color before the pages `ps`. -/
inductive Inset (d : Dms) (W H : Nat) : Color → List (List Value) → List (Bool × Except SyntaxError Page) →
    List (Bool × Except SyntaxError Page) → Prop
  | nil {c} : Inset d W H c [] [] []
  | page {c vs ps p q off xs ys} : q.durationDs = p.durationDs →
      InCorner W H (backgroundRgb d (background (signPage d).2 c vs)) p.raster q.raster → (∀ o ∈ off, o.1 = false) →
      Inset d W H (background (signPage d).2 c vs) ps xs ys →
      Inset d W H c (vs :: ps) ((true, .ok p) :: (off ++ xs)) ((true, .ok q) :: (off ++ ys))

end Ntcip.Spec
