import Verif.Spec.Narrow
/-
Specification of messages with the same tags and other texts, and of the parts of their pages that may differ.
-/
namespace Ntcip.Spec

/-- the same value, or any other text in place of a text -/
inductive Reworded : Value → Value → Prop
  | same {v} : Reworded v v
  | text {a b} : Reworded (.text a) (.text b)

/-- Is the row `j` one of the texts on the line of `s` (with its justification)?  The rows of a text are those of its
font, from its top edge (`ExactY`). -/
def InRows (d : Dms) (spans : List Span) (s : Span) (j : Nat) : Prop :=
  ∃ u ∈ sameLine spans s, ∃ y f, ExactY d spans u y ∧ FontOf d.fontDefinition u f ∧ y ≤ j ∧ j < y + f.height.toNat

/-- Is the pixel in the rows of a line with another text?  `ws` and `ws'` are the values of a text rectangle `rect`, with
the same tags. -/
def NewWords (d : Dms) (t : TextAttr) (sp : Option UInt8) (rect : Rectangle) (ws ws' : List Value) (i j : Nat) : Prop :=
  (rect.x.toNat - 1 ≤ i ∧ i < rect.x.toNat - 1 + rect.width.toNat) ∧
  ∃ (k : Nat) (s s' : Span), (layoutOf d t sp rect ws)[k]? = some s ∧ (layoutOf d t sp rect ws')[k]? = some s' ∧
    s.str ≠ s'.str ∧ InRows d (layoutOf d t sp rect ws) s j

/-- is the pixel in a text rectangle with other values? -/
def NewIn (rect : Rectangle) (ws ws' : List Value) (i j : Nat) : Prop :=
  ws ≠ ws' ∧ (rect.x.toNat - 1 ≤ i ∧ i < rect.x.toNat - 1 + rect.width.toNat) ∧
    rect.y.toNat - 1 ≤ j ∧ j < rect.y.toNat - 1 + rect.height.toNat

/-- does `N` hold for any text rectangle of a page?  There are the values of the text rectangle in each of the two
messages. -/
inductive Somewhere (d : Dms) (N : TextAttr → Option UInt8 → Rectangle → List Value → List Value → Prop) :
    TextAttr → Option UInt8 → Rectangle → List Value → List Value →
    List (Rectangle × List Value) → List (Rectangle × List Value) → Prop
  | here {t sp rect ws ws' more more'} : N t sp rect ws ws' → Somewhere d N t sp rect ws ws' more more'
  | later {t sp rect ws ws' r us us' more more'} :
      Somewhere d N (ws.foldl (TextAttr.apply (signAttr d)) t) (ws.foldl spacingAfter sp) (opened d r) us us' more more' →
      Somewhere d N t sp rect ws ws' ((r, us) :: more) ((r, us') :: more')

/-- The pages `xs` and `xs'` of two messages, with the values `ps` and `ps'` of their pages, are the same, but for the
pixels for which `N` holds in a text rectangle of the page.  `t` are the attributes of text before. -/
inductive SameBut (d : Dms) (N : Nat → Nat → TextAttr → Option UInt8 → Rectangle → List Value → List Value → Prop) :
    TextAttr → List (Bool × Except SyntaxError Page) → List (Bool × Except SyntaxError Page) →
    List (List Value) → List (List Value) → Prop
  | nil {t} : SameBut d N t [] [] [] []
  | page {t p p' off xs xs' vs vs' ps ps'} : (∀ o ∈ off, o.1 = false) →
      p.durationDs = p'.durationDs → p.raster.width = p'.raster.width → p.raster.height = p'.raster.height →
      (∀ i j, p.raster.px i j ≠ p'.raster.px i j →
        Somewhere d (N i j) t none (signRect d) (sections vs).1 (sections vs').1 (sections vs).2 (sections vs').2) →
      SameBut d N (vs.foldl (TextAttr.apply (signAttr d)) t) xs xs' ps ps' →
      SameBut d N t ((true, .ok p) :: (off ++ xs)) ((true, .ok p') :: (off ++ xs')) (vs :: ps) (vs' :: ps')

end Ntcip.Spec
