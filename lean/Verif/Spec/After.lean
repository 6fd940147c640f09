import Verif.Spec.Account
/-
Specification of everything that is given for a message, including what is given after an error.
-/
namespace Ntcip.Spec

/-- What the iterator goes on with after an error of a page -/
inductive Resume
  /-- the items of the page, without the first `k` ones, as a page of its own; `t` are the text attributes before it -/
  | page (t : TextAttr) (k : Nat)
  /-- the next page, if there is one; before it an OFF page (with the size of `rect`), when the off-time is not zero -/
  | next (t : TextAttr) (rect : Rectangle)
  /-- nothing but such an OFF page: the rest of the message is dropped -/
  | stop (rect : Rectangle)

/-- the check, and what follows when it gives an error -/
def followed (r : Resume) (c : Check) : SyntaxError × Resume → Prop := fun x => c x.1 ∧ x.2 = r

/-- what follows an error that is found after all items of a text rectangle have been read: the next page, or when there
are more text rectangles, those of them as a page (which begins at item `k`) -/
def afterRect (t : TextAttr) (rect : Rectangle) (k : Nat) (more : List (Rectangle × List Value)) : Resume :=
  if more.isEmpty then .next t rect else .page t k

/-- The checks of one text rectangle (`rectChecks`), which begins at item `k` of the page, with what follows: colors and
graphics are checked before an item is read; after a wrong tag the rest is dropped; after a wrong `[tr]` tag the page goes
on; the texts are checked at the end -/
def rectAfter (d : Dms) (t : TextAttr) (sp : Option UInt8) (rect : Rectangle) (k : Nat) (ws : List Value)
    (more : List (Rectangle × List Value)) : List (SyntaxError × Resume → Prop) :=
  let t' := ws.foldl (TextAttr.apply (signAttr d)) t
  let k' := k + ws.length + 1
  ws.map (fun v => followed (.page t k) (PaintFault d v)) ++ (ws.map (fun v => followed (.stop rect) (LayoutFault d v)) ++
    (((more.map Prod.fst).take 1).map (fun r => followed (.page t' k') (LayoutFault d (.textRectangle r))) ++
      (textChecks d rect (layoutOf d t sp rect ws)).map (followed (afterRect t' rect k' more))))

/-- the checks of all text rectangles of a page (`rectsChecks`), with what follows -/
def rectsAfter (d : Dms) : Nat → TextAttr → Option UInt8 → Rectangle → Nat → List Value → List (Rectangle × List Value) →
    List (SyntaxError × Resume → Prop)
  | n, t, sp, rect, k, ws, [] => rectAfter d t sp rect k ws [] ++
      [followed (.next (ws.foldl (TextAttr.apply (signAttr d)) t) rect) (CountFault n)]
  | n, t, sp, rect, k, ws, (r, us) :: more => rectAfter d t sp rect k ws ((r, us) :: more) ++
      followed (.page (ws.foldl (TextAttr.apply (signAttr d)) t) (k + ws.length + 1)) (CountFault n) ::
      rectsAfter d (n + 1) (ws.foldl (TextAttr.apply (signAttr d)) t) (ws.foldl spacingAfter sp) (opened d r)
        (k + ws.length + 1) us more

/-- The first fault of the page that begins at `ss` (as `FirstFault`), and what follows its error: wrong items and
background colors are found before any item is read, so the same page follows -/
def FirstAfter (d : Dms) (t : TextAttr) (ss : List Str) (x : SyntaxError × Resume) : Prop :=
  followed (.page t 0) (ItemFault d ss) x ∨ ∃ vs rest b, TakePage ss vs rest b ∧
    (∀ v ∈ vs, ∀ t, v.tag = some t → d.multiCfg.supportedMultiTags t = true) ∧
    (b = true → d.multiCfg.supportedMultiTags .np = true) ∧
    First (vs.map (fun v => followed (.page t 0) (BackgroundFault d v)) ++
      rectsAfter d 1 t none (signRect d) 0 (sections vs).1 (sections vs).2) x

/-- the page attributes after a page -/
def attrAfter (d : Dms) (p : PageAttr) (vs : List Value) : PageAttr :=
  (pageTimes (signPage d).1 p.1 vs, background (signPage d).2 p.2 vs)

/-- the OFF page, when the off-time is not zero -/
def offPage (d : Dms) (p : PageAttr) (rect : Rectangle) : List (Bool × Except SyntaxError Page) :=
  if p.1.2.toNat > 0 then [(false, .ok ⟨plain d rect.width.toNat rect.height.toNat p.2, p.1.2.toNat⟩)] else []

/-- Everything that is given for the items `ss`, with the text attributes `t` and the page attributes `p` in effect
before: pages without fault are shown (as in `Pictured`), for the others their first error is given and it is followed by
what `Resume` tells.  There is no such list when a page would follow itself: its error is then given again and again. -/
inductive Given (d : Dms) : TextAttr → PageAttr → List Str → List (Bool × Except SyntaxError Page) → Prop
  | shown {t p ss vs rest b raster more} : (∀ e, ¬ FirstFault d t ss e) → TakePage ss vs rest b →
      Composed d (attrAfter d p vs).2 t none (signRect d) (sections vs).1 (sections vs).2
        (plain d d.vmsCfg.signWidthPixels.toNat d.vmsCfg.signHeightPixels.toNat (attrAfter d p vs).2) raster →
      (b = true → Given d (vs.foldl (TextAttr.apply (signAttr d)) t) (attrAfter d p vs) rest more) →
      (b = false → more = []) →
      Given d t p ss ((true, .ok ⟨raster, (attrAfter d p vs).1.1.toNat⟩) ::
        (offPage d (attrAfter d p vs) (lastRect d (signRect d) (sections vs).2) ++ more))
  | page {t p ss vs rest b e t' k more} : FirstAfter d t ss (e, .page t' k) → TakePage ss vs rest b →
      Given d t' (attrAfter d p vs) (ss.drop k) more → Given d t p ss ((true, .error e) :: more)
  | next {t p ss vs rest b e t' rect more} : FirstAfter d t ss (e, .next t' rect) → TakePage ss vs rest b →
      (b = true → Given d t' (attrAfter d p vs) rest more) → (b = false → more = []) →
      Given d t p ss ((true, .error e) :: (offPage d (attrAfter d p vs) rect ++ more))
  | stop {t p ss vs rest b e rect} : FirstAfter d t ss (e, .stop rect) → TakePage ss vs rest b →
      Given d t p ss ((true, .error e) :: offPage d (attrAfter d p vs) rect)

/-- One ON page or one error for each page, at its place: a page whose texts can be shown is shown, for any other one the
first error of its texts is given.  Other pages, OFF pages, and the attributes in effect do not depend on this. -/
def Severally (d : Dms) : TextAttr → PageAttr → List (Bool × Except SyntaxError Page) → List (List Value) → Prop
  | _, _, xs, [] => xs = []
  | t, p, xs, vs :: rest =>
    let p' := attrAfter d p vs
    let checks := textChecks d (signRect d) (layoutOf d t none (signRect d) vs)
    ∃ x more, xs = (true, x) :: (offPage d p' (signRect d) ++ more) ∧
      ((∃ e, x = .error e ∧ First checks e) ∨
        ∃ raster, x = .ok ⟨raster, p'.1.1.toNat⟩ ∧ (∀ e, ¬ First checks e) ∧
          Composed d p'.2 t none (signRect d) vs []
            (plain d d.vmsCfg.signWidthPixels.toNat d.vmsCfg.signHeightPixels.toNat p'.2) raster) ∧
      Severally d (vs.foldl (TextAttr.apply (signAttr d)) t) p' more rest

end Ntcip.Spec
