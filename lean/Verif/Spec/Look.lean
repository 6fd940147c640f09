import Verif.Spec.Accept
/-
Specification of the look of a message: what is shown, without the way it is written.
-/
namespace Ntcip.Spec

/-- something that is painted before the text -/
inductive Paint where
  | rectangle (r : Rectangle) (c : Color)
  | graphic (n : UInt8) (pos : Option (UInt16 × UInt16 × Option UInt16)) (colors : Colors)

/-- the color rectangles and graphics of the values; `p` are the colors in effect before -/
def paints (d : Dms) : Colors → List Value → List Paint
  | _, [] => []
  | p, .colorRectangle r c :: vs => .rectangle r c :: paints d p vs
  | p, .graphic n pos :: vs => .graphic n pos p :: paints d p vs
  | p, v :: vs => paints d (p.apply d v) vs

/-- May the texts be written as one?  They have the same attributes and are on the same line, and they are not centered
on a sign with character cells, where each centered text starts at a cell. -/
def joinable (d : Dms) (p q : Piece) : Bool :=
  p.attr = q.attr ∧ p.spacing = q.spacing ∧ p.line = q.line ∧ p.str ≠ [] ∧ q.str ≠ [] ∧
    (d.vmsCfg.charWidthPixels = 0 ∨ p.attr.justLine ≠ .center)

/-- texts, written with as few pieces as possible -/
def glue (d : Dms) : List Piece → List Piece
  | [] => []
  | p :: ps =>
    match glue d ps with
    | [] => [p]
    | q :: qs => if joinable d p q then { p with str := p.str ++ q.str } :: qs else p :: q :: qs

/-- the look of a text rectangle -/
structure PartLook where
  rect : Rectangle
  paints : List Paint
  texts : List Piece

/-- the look of a page: its times, background color and text rectangles -/
structure PageLook where
  times : UInt8 × UInt8
  background : Color
  parts : List PartLook

/-- the look of the text rectangles of a page: the values `vs` in the rectangle `rect`, and the following ones; `bg` is
the background color of the page, `t` and `sp` are the attributes and the line spacing in effect before -/
def partsOf (d : Dms) (bg : Color) : TextAttr → Option UInt8 → Rectangle → List Value → List (Rectangle × List Value) →
    List PartLook
  | t, sp, rect, vs, [] => [⟨rect, paints d ⟨t.foreground, bg⟩ vs, glue d (pieces (signAttr d) t sp 0 true vs)⟩]
  | t, sp, rect, vs, (r, ws) :: rest =>
    ⟨rect, paints d ⟨t.foreground, bg⟩ vs, glue d (pieces (signAttr d) t sp 0 true vs)⟩ ::
      partsOf d bg (vs.foldl (TextAttr.apply (signAttr d)) t) (vs.foldl spacingAfter sp) (opened d r) ws rest

/-- the look of each page; `t` and `p` are the attributes before the first one -/
def looks (d : Dms) : TextAttr → PageAttr → List (List Value) → List PageLook
  | _, _, [] => []
  | t, p, vs :: rest =>
    let times := pageTimes (signPage d).1 p.1 vs
    let bg := background (signPage d).2 p.2 vs
    ⟨times, bg, partsOf d bg t none (signRect d) (sections vs).1 (sections vs).2⟩ ::
      looks d (vs.foldl (TextAttr.apply (signAttr d)) t) (times, bg) rest

/-- the look of a message with the values `vs` -/
def lookOf (d : Dms) (vs : List Value) : List PageLook := looks d (signAttr d) (signPage d) (splitPages vs)

/-! ### the pictures of a look -/

/-- the color that is painted at the pixel `(i, j)` of a page of `W`×`H` pixels (`none`: it is not painted) -/
inductive PaintAt (d : Dms) (W H : Nat) : Paint → Nat → Nat → Option Rgb → Prop
  | rect {r c i j} : PixelIn W H r i j → PaintAt d W H (.rectangle r c) i j (some (foregroundRgb d c))
  | offRect {r c i j} : ¬ PixelIn W H r i j → PaintAt d W H (.rectangle r c) i j none
  | graphic {n pos p g c i j} : GraphicOf d n pos g → InBox g (corner pos) i j →
      PixelValue g.gtype g.bitmap ((j - (corner pos).2) * g.width.toNat + (i - (corner pos).1)) c →
      PaintAt d W H (.graphic n pos p) i j
        (if g.transparentColor = some c then none else shown g.gtype (p.ctx d) c)
  | offGraphic {n pos p g i j} : GraphicOf d n pos g → ¬ InBox g (corner pos) i j →
      PaintAt d W H (.graphic n pos p) i j none

/-- the color that all of them paint, later ones over earlier ones -/
inductive PaintsAt (d : Dms) (W H : Nat) : List Paint → Nat → Nat → Option Rgb → Prop
  | nil {i j} : PaintsAt d W H [] i j none
  | cons {p ps i j o u} : PaintAt d W H p i j o → PaintsAt d W H ps i j u → PaintsAt d W H (p :: ps) i j (u.or o)

/-- `b` is `a` with everything painted -/
structure PaintsOn (d : Dms) (ps : List Paint) (a b : Raster) : Prop where
  width : b.width = a.width
  height : b.height = a.height
  px : ∀ i j, ∃ o, PaintsAt d a.width a.height ps i j o ∧ b.px i j = o.getD (a.px i j)

/-- `x` is the left edge of the text `s`, after the texts `l` and before the texts `r`: that of its line, and what is
before it on the line (centered text starts at a character cell) -/
def PlaceX (d : Dms) (l : List Span) (s : Span) (r : List Span) (x : Nat) : Prop :=
  ∃ n total, Before d.fontDefinition (sameLine l s) s n ∧
    LineWidth d.fontDefinition none (sameLine (l ++ s :: r) s) total ∧ total ≤ s.state.textRectangle.width.toNat ∧
    x = if s.state.justLine = .center
      then cellEdge (signCellWidth d) (lineLeft s.state.textRectangle s.state.justLine total + n)
      else lineLeft s.state.textRectangle s.state.justLine total + n

/-- all texts are at their places -/
def Placed (d : Dms) (ps : List (Span × Nat × Nat)) : Prop :=
  ∀ l p r, ps = l ++ p :: r → PlaceX d (l.map (·.1)) p.1 (r.map (·.1)) p.2.1 ∧ AtY d (ps.map (·.1)) p.1 p.2.2

/-- `b` is `a` with the texts drawn in the rectangle -/
def TextsOn (d : Dms) (rect : Rectangle) (texts : List Piece) (a b : Raster) : Prop :=
  ∃ ps : List (Span × Nat × Nat), ps.map (fun p => pieceOf p.1) = texts ∧
    (∀ p ∈ ps, p.1.state.textRectangle = rect ∧
      p.1.state.colorCtx.foregroundRgb = foregroundRgb d (pieceOf p.1).attr.foreground ∧ ∀ ch ∈ p.1.str, ch.toNat ≠ 0) ∧
    Placed d ps ∧ TextAt d.fontDefinition ps a b

/-- `b` is `a` with the text rectangles drawn, one after the other: first what is painted, then text -/
inductive PartsOn (d : Dms) : List PartLook → Raster → Raster → Prop
  | nil {a} : PartsOn d [] a a
  | cons {p ps a g u b} : PaintsOn d p.paints a g → TextsOn d p.rect p.texts g u → PartsOn d ps u b →
      PartsOn d (p :: ps) a b

/-- an image in one color -/
def plain (d : Dms) (W H : Nat) (bg : Color) : Raster := .withColor W H (backgroundRgb d bg)

/-- The pages shown: for each page an ON page with its picture, and, when its off-time is not zero, an OFF page in the
background color (it has the size of the last text rectangle). -/
def Depicts (d : Dms) : List (Bool × Except SyntaxError Page) → List PageLook → Prop
  | xs, [] => xs = []
  | xs, l :: ls => ∃ raster rest, PartsOn d l.parts
      (plain d d.vmsCfg.signWidthPixels.toNat d.vmsCfg.signHeightPixels.toNat l.background) raster ∧
    xs = (true, .ok ⟨raster, l.times.1.toNat⟩) ::
      ((if l.times.2.toNat > 0 then
        let r := (l.parts.getLast?.map (·.rect)).getD (signRect d)
        [(false, .ok ⟨plain d r.width.toNat r.height.toNat l.background, l.times.2.toNat⟩)]
      else []) ++ rest) ∧ Depicts d rest ls

/-! ### the looks that can be shown -/

/-- the sign supports the tags of all values, and can show them -/
def ValuesOk (d : Dms) (vs : List Value) : Prop :=
  ∀ v ∈ vs, (∀ t, v.tag = some t → d.multiCfg.supportedMultiTags t = true) ∧ ValueOk d v

/-- at most 50 text rectangles on each page, and the texts of each fit into it -/
def LookFits (d : Dms) (ls : List PageLook) : Prop :=
  ∀ l ∈ ls, l.parts.length ≤ 50 ∧ ∀ q ∈ l.parts, TextsFit d q.rect (q.texts.map (spanOf d q.rect))

/-! ### other ways to write a message -/

/-- does the value only set an attribute of text? -/
def setsAttr : Value → Prop
  | .font _ | .justificationLine _ | .justificationPage _ | .spacingCharacter _ | .spacingCharacterEnd
  | .colorForeground _ => True
  | _ => False

/-- `ws` are the values `vs`, written in another way, with the text attributes `t` in effect before: without tags that set
the attributes to what they are already, with adjacent texts written as one, with characters written as text or
hexadecimal. -/
inductive Rewrites (d : Dms) : TextAttr → List Value → List Value → Prop
  | nil {t} : Rewrites d t [] []
  | keep {t v vs ws} : Rewrites d (TextAttr.apply (signAttr d) t v) vs ws → Rewrites d t (v :: vs) (v :: ws)
  | drop {t v vs ws} : setsAttr v → TextAttr.apply (signAttr d) t v = t → Rewrites d t vs ws → Rewrites d t (v :: vs) ws
  | join {t a b vs ws} : a ≠ [] → b ≠ [] → (d.vmsCfg.charWidthPixels = 0 ∨ t.justLine ≠ .center) →
      Rewrites d t vs (.text b :: ws) → Rewrites d t (.text a :: vs) (.text (a ++ b) :: ws)
  | hex {t c vs ws} : Rewrites d t vs ws → Rewrites d t (.hexadecimalCharacter c :: vs) (.text (hexText c) :: ws)
  | unhex {t c vs ws} : Rewrites d t vs ws → Rewrites d t (.text (hexText c) :: vs) (.hexadecimalCharacter c :: ws)

/-- all pages are in order; `t` are the text attributes before the first one -/
def TidyPages (d : Dms) : TextAttr → List (List Value) → Prop
  | _, [] => True
  | t, vs :: rest => (vs.length ≤ 255 ∧ TidyPage d t vs) ∧
      TidyPages d (vs.foldl (TextAttr.apply (signAttr d)) t) rest

end Ntcip.Spec
