import Verif.Spec.After
/-
Specification of a message whose errors affect no other page, and of what is then given.
-/
namespace Ntcip.Spec

/-- the checks of a page, with what follows when one of them gives an error (as in `FirstAfter`) -/
def checksAfter (d : Dms) (t : TextAttr) (vs : List Value) : List (SyntaxError × Resume → Prop) :=
  vs.map (fun v => followed (.page t 0) (BackgroundFault d v)) ++
    rectsAfter d 1 t none (signRect d) 0 (sections vs).1 (sections vs).2

/-- The first fault of every page (if it has one) is one that is found when the whole page has been read: in a text of its
last text rectangle, or in the number of texts.  On the last page it may also be in the layout tags of its last text
rectangle.  `t` are the text attributes before the first page; those of a page are applied to the end, error or not. -/
def Contained (d : Dms) : TextAttr → List (List Value) → Prop
  | _, [] => True
  | t, vs :: rest =>
    (∀ x, First (checksAfter d t vs) x → (∃ t' r, x.2 = .next t' r) ∨
      rest = [] ∧ x.2 = .stop (lastRect d (signRect d) (sections vs).2)) ∧
    Contained d (vs.foldl (TextAttr.apply (signAttr d)) t) rest

/-- One ON page or one error for each page, at its place, each followed by its OFF page: as `Severally`, with text
rectangles and all faults of a page -/
def Separate (d : Dms) : TextAttr → PageAttr → List (Bool × Except SyntaxError Page) → List (List Value) → Prop
  | _, _, xs, [] => xs = []
  | t, p, xs, vs :: rest =>
    let p' := attrAfter d p vs
    ∃ x more, xs = (true, x) :: (offPage d p' (lastRect d (signRect d) (sections vs).2) ++ more) ∧
      ((∃ e, x = .error e ∧ First (pageChecks d t vs) e) ∨
        ∃ raster, x = .ok ⟨raster, p'.1.1.toNat⟩ ∧ (∀ e, ¬ First (pageChecks d t vs) e) ∧
          Composed d p'.2 t none (signRect d) (sections vs).1 (sections vs).2
            (plain d d.vmsCfg.signWidthPixels.toNat d.vmsCfg.signHeightPixels.toNat p'.2) raster) ∧
      Separate d (vs.foldl (TextAttr.apply (signAttr d)) t) p' more rest

end Ntcip.Spec
