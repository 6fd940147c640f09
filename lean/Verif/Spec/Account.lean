import Verif.Spec.First
import Verif.Spec.Look
/-
Specification of everything that is given for a message: its pages, or the first error.
-/
namespace Ntcip.Spec

/-- The pages shown for the values of each page, with the text attributes `t` and the page attributes `p` in effect before:
an ON page as described by its values (`Composed`), and, when its off-time is not zero, an OFF page in the background color
(it has the size of the last text rectangle). -/
def Pictured (d : Dms) : TextAttr → PageAttr → List (Bool × Except SyntaxError Page) → List (List Value) → Prop
  | _, _, xs, [] => xs = []
  | t, p, xs, vs :: rest =>
    let times := pageTimes (signPage d).1 p.1 vs
    let bg := background (signPage d).2 p.2 vs
    let r := lastRect d (signRect d) (sections vs).2
    ∃ raster more, Composed d bg t none (signRect d) (sections vs).1 (sections vs).2
      (plain d d.vmsCfg.signWidthPixels.toNat d.vmsCfg.signHeightPixels.toNat bg) raster ∧
    xs = (true, .ok ⟨raster, times.1.toNat⟩) ::
      ((if times.2.toNat > 0 then [(false, .ok ⟨plain d r.width.toNat r.height.toNat bg, times.2.toNat⟩)] else []) ++
        more) ∧ Pictured d (vs.foldl (TextAttr.apply (signAttr d)) t) (times, bg) more rest

/-- Some page has a fault; `e` is the first error of the first page with one. -/
inductive FirstFaulty (d : Dms) : TextAttr → List Str → SyntaxError → Prop
  | here {t ss e} : FirstFault d t ss e → FirstFaulty d t ss e
  | later {t ss vs rest e} : (∀ e, ¬ FirstFault d t ss e) → TakePage ss vs rest true →
      FirstFaulty d (vs.foldl (TextAttr.apply (signAttr d)) t) rest e → FirstFaulty d t ss e

end Ntcip.Spec
